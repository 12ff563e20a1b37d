import Verif.Model.HeaderParse
import Verif.Lemmas.Util

namespace Verif
namespace Par
variable {σ α β : Type}

theorem pure_apply (a : α) (s : σ) : (pure a : Par σ α) s = .ok (.val a s) := rfl

theorem bind_apply (p : Par σ α) (f : α → Par σ β) (s : σ) : (p >>= f) s = match p s with
  | .ok (.val a s) => f a s
  | .ok (.stop c) => .ok (.stop c)
  | .exn e => .exn e
  | .fatal f => .fatal f := rfl

theorem bind_val_eq {p : Par σ α} {f : α → Par σ β} {s : σ} {a : α} {s' : σ} (h : p s = .ok (.val a s')) :
    (p >>= f) s = f a s' := by rw [bind_apply, h]

theorem bind_stop_eq {p : Par σ α} {f : α → Par σ β} {s : σ} {c : ErrorCode} (h : p s = .ok (.stop c)) :
    (p >>= f) s = .ok (.stop c) := by rw [bind_apply, h]

theorem bind_exn_eq {p : Par σ α} {f : α → Par σ β} {s : σ} {e : Exn} (h : p s = .exn e) :
    (p >>= f) s = .exn e := by rw [bind_apply, h]

theorem bind_fatal_eq {p : Par σ α} {f : α → Par σ β} {s : σ} {e : Fatal} (h : p s = .fatal e) :
    (p >>= f) s = .fatal e := by rw [bind_apply, h]

@[simp] theorem fail_apply (c : ErrorCode) (s : σ) : (fail c : Par σ α) s = .ok (.stop c) := rfl
@[simp] theorem lift_ok (a : α) (s : σ) : lift (.ok a) s = .ok (.val a s) := rfl
@[simp] theorem lift_exn (e : Exn) (s : σ) : (lift (.exn e) : Par σ α) s = .exn e := rfl
@[simp] theorem lift_fatal (f : Fatal) (s : σ) : (lift (.fatal f) : Par σ α) s = .fatal f := rfl

theorem onExn_ok {x : Par σ α} {h : Exn → Option ErrorCode} {s : σ} {r : Step σ α} (hx : x s = .ok r) :
    onExn x h s = .ok r := by simp only [onExn, hx]

theorem onExn_caught {x : Par σ α} {h : Exn → Option ErrorCode} {s : σ} {e : Exn} {c : ErrorCode} (hx : x s = .exn e)
    (hc : h e = some c) : onExn x h s = .ok (.stop c) := by simp only [onExn, hx, hc]

end Par

/-! ### streams behave like the list of their remaining bytes -/

/-- `x` (a result of a stream parser) and `y` (of a list parser) agree -/
def SimR {α : Type} (x : Res (Step IStream α)) (y : Res (Step (List Byte) α)) : Prop :=
  match y with
  | .ok (.val a l) => ∃ s, x = .ok (.val a s) ∧ s.rest = l ∧ s.eof = false
  | .ok (.stop c) => x = .ok (.stop c)
  | .exn e => x = .exn e
  | .fatal f => x = .fatal f

/-- the stream parser behaves like the list parser -/
def Sim {α : Type} (p : Par IStream α) (q : Par (List Byte) α) : Prop :=
  ∀ s : IStream, s.eof = false → SimR (p s) (q s.rest)

namespace Sim
variable {α β : Type}

theorem pure (a : α) : Sim (pure a) (pure a) := fun s hs => ⟨s, rfl, rfl, hs⟩

theorem fail (c : ErrorCode) : Sim (Par.fail c : Par IStream α) (Par.fail c) := fun _ _ => rfl

theorem lift (x : Res α) : Sim (Par.lift x) (Par.lift x) := by
  intro s hs
  cases x with
  | ok a => exact ⟨s, rfl, rfl, hs⟩
  | exn e => exact rfl
  | fatal f => exact rfl

theorem bind {p : Par IStream α} {q : Par (List Byte) α} {f : α → Par IStream β} {g : α → Par (List Byte) β}
    (h : Sim p q) (hf : ∀ a, Sim (f a) (g a)) : Sim (p >>= f) (q >>= g) := by
  intro s hs
  have h1 := h s hs
  rw [Par.bind_apply, Par.bind_apply]
  cases hq : q s.rest with
  | ok r =>
    cases r with
    | val a l =>
      rw [hq] at h1
      obtain ⟨s', h2, h3, h4⟩ := h1
      rw [h2]
      simp only
      rw [← h3]
      exact hf a s' h4
    | stop c =>
      rw [hq] at h1
      simp only [SimR] at h1
      rw [h1]; rfl
  | exn e =>
    rw [hq] at h1
    simp only [SimR] at h1
    rw [h1]; rfl
  | fatal e =>
    rw [hq] at h1
    simp only [SimR] at h1
    rw [h1]; rfl

theorem onExn {p : Par IStream α} {q : Par (List Byte) α} (h : Sim p q) (c : Exn → Option ErrorCode) :
    Sim (Par.onExn p c) (Par.onExn q c) := by
  intro s hs
  have h1 := h s hs
  unfold Par.onExn
  cases hq : q s.rest with
  | ok r =>
    cases r with
    | val a l =>
      rw [hq] at h1
      obtain ⟨s', h2, h3, h4⟩ := h1
      rw [h2]
      exact ⟨s', rfl, h3, h4⟩
    | stop c =>
      rw [hq] at h1
      simp only [SimR] at h1
      rw [h1]; rfl
  | exn e =>
    rw [hq] at h1
    simp only [SimR] at h1
    rw [h1]
    simp only
    cases c e <;> rfl
  | fatal e =>
    rw [hq] at h1
    simp only [SimR] at h1
    rw [h1]; rfl

end Sim

namespace HeaderParse

/-- reading from a list of bytes -/
def rdList (cap n : Nat) : Par (List Byte) (List Byte) := fun l =>
  if cap < n % 2 ^ 32 then .ok (.stop .ERR_NOT_ENOUGH_DATA)
  else if n % 2 ^ 32 ≤ l.length then .ok (.val (l.take (n % 2 ^ 32)) (l.drop (n % 2 ^ 32)))
  else .ok (.stop .ERR_NOT_ENOUGH_DATA)

theorem sim_rd (cap n : Nat) : Sim (rdStream cap n) (rdList cap n) := by
  intro s hs
  have hn : readData s (Bytes.empty cap) n = readData s (Bytes.empty cap) (n % 2 ^ 32) := by
    unfold readData; rw [Nat.mod_mod]
  obtain ⟨s', h⟩ := readData_spec s (Bytes.empty cap) (n % 2 ^ 32) hs (Nat.mod_lt _ (by decide))
  unfold rdStream rdList
  rw [hn]
  split at h
  · rename_i hc
    rw [if_pos (by exact hc), h.1]; rfl
  · rename_i hc
    rw [if_neg (by exact hc)]
    split at h
    · rename_i hl
      rw [if_pos hl, h.1]
      exact ⟨s', rfl, h.2⟩
    · rename_i hl
      rw [if_neg hl, h.1]; rfl

theorem sim_rdByte : Sim (rdByte rdStream) (rdByte rdList) := by
  refine Sim.bind (sim_rd 1 1) ?_
  intro l
  cases l with
  | nil => exact Sim.lift _
  | cons x xs => exact Sim.pure x

theorem sim_rdLong : Sim (rdLong rdStream) (rdLong rdList) :=
  Sim.bind (sim_rd 8 8) fun _ => Sim.lift _

theorem sim_rdBlocks (k : Nat) : ∀ d, Sim (rdBlocks rdStream k d) (rdBlocks rdList k d) := by
  induction k with
  | zero => intro d; exact Sim.pure d
  | succ k ih =>
    intro d
    refine Sim.bind sim_rdByte fun t => Sim.bind sim_rdByte fun len => Sim.bind (sim_rd _ _) fun data =>
      Sim.bind (Sim.lift _) fun d => ih d

theorem sim_rdParts (dblen : Nat) (nls : List NameLen) : ∀ c n,
    Sim (rdParts rdStream dblen nls c n) (rdParts rdList dblen nls c n) := by
  induction nls with
  | nil => intro c n; exact Sim.pure _
  | cons nl nls ih =>
    intro c n
    unfold rdParts
    split
    · exact Sim.bind (sim_rd _ _) fun l => Sim.bind (Sim.onExn (Sim.lift _) _) fun c =>
        ih c _
    · exact Sim.bind (sim_rd _ _) fun l => Sim.bind (Sim.onExn (Sim.lift _) _) fun c => Sim.pure _

theorem sim_rdChainHash : Sim (rdChainHash rdStream) (rdChainHash rdList) := by
  refine Sim.bind sim_rdByte fun mode => ?_
  cases CHMode.ofByte mode with
  | none => exact Sim.fail _
  | some m =>
    refine Sim.bind sim_rdLong fun iters => Sim.bind sim_rdByte fun dblen =>
      Sim.bind (sim_rdParts _ _ _ _) fun x => ?_
    exact Sim.bind (Sim.lift _) fun _ => Sim.bind (Sim.lift _) fun _ => Sim.pure _

theorem sim_rdEncBlocks (k : Nat) : ∀ d, Sim (rdEncBlocks rdStream k d) (rdEncBlocks rdList k d) := by
  induction k with
  | zero => intro d; exact Sim.pure d
  | succ k ih =>
    intro d
    exact Sim.bind sim_rdByte fun t => Sim.bind sim_rdByte fun len => Sim.bind (sim_rd _ _) fun data =>
      Sim.bind (Sim.lift _) fun d => ih d

theorem sim_rdContent (hs : Hashes) (r : Rand) (n : UInt64) : Sim (rdContent rdStream hs r n) (rdContent rdList hs r n) := by
  refine Sim.bind sim_rdByte fun fm => Sim.bind sim_rdByte fun hm => Sim.bind (Sim.onExn (Sim.lift _) _) fun d =>
    Sim.bind (Sim.onExn (Sim.lift _) _) fun d => Sim.bind sim_rdByte fun k => Sim.bind (sim_rdBlocks _ _) fun d =>
    Sim.bind sim_rdChainHash fun c1 => Sim.bind (Sim.onExn (Sim.lift _) _) fun d =>
    Sim.bind sim_rdChainHash fun c2 => Sim.bind (Sim.onExn (Sim.lift _) _) fun d =>
    Sim.bind (sim_rd _ _) fun v => Sim.bind (Sim.onExn (Sim.lift _) _) fun d =>
    Sim.bind (sim_rd _ _) fun s => Sim.bind (Sim.onExn (Sim.lift _) _) fun d =>
    Sim.bind (Sim.onExn (Sim.lift _) _) fun d => Sim.bind sim_rdByte fun k => Sim.bind (sim_rdEncBlocks _ _) fun d =>
    Sim.onExn (Sim.lift _) _

theorem sim_rdHeader (hs : Hashes) (r : Rand) :
    Sim (rdHeader rdStream (fun s => s.rest.length) hs r) (rdHeader rdList List.length hs r) := by
  intro start hstart
  unfold rdHeader
  refine Sim.bind sim_rdLong (fun n => Sim.bind sim_rdLong fun l => ?_) start hstart
  split
  · exact Sim.fail _
  · split
    · exact Sim.fail _
    · refine Sim.bind (sim_rdContent _ _ _) fun d => ?_
      intro s hs
      exact Sim.lift _ s hs

end HeaderParse
end Verif
