import Verif.Lemmas.Log
import Verif.Lemmas.NewHeader
import Verif.Spec.Log

/-
What the log tells about a password while a header is created.
-/
namespace Verif
open Spec

namespace Logged
variable {α β : Type}

theorem bind_lines {x : Logged α} {a : α} (h : x.res = .ok a) (f : α → Logged β) :
    (x >>= f).lines = x.lines ++ (f a).lines := by
  show (Logged.bind x f).lines = _
  unfold Logged.bind
  rw [h]

end Logged

namespace Log
open Logged

/-- what the lines tell -/
def told (ls : List Line) : List Fact := ls.filterMap tell

theorem told_append (a b : List Line) : told (a ++ b) = told a ++ told b := List.filterMap_append

theorem told_bind {α β : Type} {x : Logged α} {a : α} (h : x.res = .ok a) (f : α → Logged β) :
    told (x >>= f).lines = told x.lines ++ told (f a).lines := by rw [bind_lines h, told_append]

theorem told_quiet_bind {α β : Type} {r : Res α} {a : α} (h : r = .ok a) (f : α → Logged β) :
    told (quiet r >>= f).lines = told (f a).lines := by rw [told_bind (show (quiet r).res = .ok a from h)]; rfl

theorem told_say_bind {β : Type} (s : Sev) (is : List Item) (f : Unit → Logged β) :
    told (say s is >>= f).lines = told [⟨s, is⟩] ++ told (f ()).lines := told_bind rfl f

theorem told_emit_bind {β : Type} (ls : List Line) (f : Unit → Logged β) :
    told (emit ls >>= f).lines = told ls ++ told (f ()).lines := told_bind rfl f

theorem told_bind_mute {α β : Type} {x : Logged α} {f : α → Logged β} (h : told x.lines = [])
    (hf : ∀ a, told (f a).lines = []) : told (x >>= f).lines = [] := by
  show told (Logged.bind x f).lines = []
  unfold Logged.bind
  split
  · rw [told_append, h, hf]; rfl
  · exact h
  · exact h

theorem tell_none {s : Sev} {is : List Item} (h : tell ⟨s, is⟩ = none) : told [⟨s, is⟩] = [] := by
  show List.filterMap tell _ = []
  rw [List.filterMap_cons, h]; rfl

theorem chain_good {c : ChainHash} (h : c.Good) (s : Sev) (t : String) :
    tell ⟨s, .text t :: chain c⟩ =
      if t = "setting chainhash1: " then some (.ch1 c.desc) else if t = "setting chainhash2: " then some (.ch2 c.desc) else none := by
  obtain ⟨m, n, block, hb, h1, h2, rfl⟩ := h
  have hc : (ChainHashData.isComplete ⟨m, ⟨block, 255⟩, m.nameLens.length⟩) = true := by
    cases m <;> rfl
  simp only [mkCH, chain, Log.block, hc, if_true, optNum, Option.map, tell, ChainHash.desc, UInt8.ofNat_toNat]

theorem isValid_good {c : ChainHash} (h : c.Good) : isValid c = [] := by
  obtain ⟨m, n, block, hb, a, b, rfl⟩ := h
  have := mkCH_valid m n block a b
  unfold isValid
  rw [if_pos]
  exact this

theorem assign_good {c : ChainHash} (h : c.Good) : assign c = ⟨[], .ok c⟩ := by
  unfold assign
  rw [h.assign]
  show (⟨[] ++ (isValid c ++ []), .ok c⟩ : Logged ChainHash) = _
  rw [isValid_good h]; rfl

theorem told_newChain {m : CHMode} {n : UInt64} {r : Rand} (hn : 0 < n.toNat ∧ n.toNat ≤ maxIterations) :
    newChain m n.toNat ⟨m, ⟨r.take m.randLen, 255⟩, m.nameLens.length⟩ = ⟨[], .ok (Api.newChain m n r)⟩ := by
  unfold newChain
  rw [UInt64.ofNat_toNat, mkCH_eq_make hn.1 hn.2]
  have g : (mkCH m n (r.take m.randLen)).Good := Api.newChain_good m n r hn
  rw [isValid_good g, assign_good g]
  rfl

/-- the told facts of a header being put together -/
def facts (m : HMode) (c1 c2 : ChainHash) (v : List Byte) : List Fact :=
  [.mode m.toByte.toNat, .ch1 c1.desc, .ch2 c2.desc, .validator v]

theorem told_quiet {α : Type} (r : Res α) : told (quiet r).lines = [] := rfl

theorem told_say {s : Sev} {is : List Item} (h : tell ⟨s, is⟩ = none) : told (say s is).lines = [] := tell_none h

theorem told_getHash (m : HMode) : told (getHash m).lines = [] := rfl

theorem told_setFileDataMode (d : DataHeader) (m : Byte) : told (setFileDataMode d m).lines = [] :=
  told_bind_mute rfl fun _ => rfl

theorem told_setEncSalt (d : DataHeader) (b : Bytes) : told (setEncSalt d b).lines = [] :=
  told_bind_mute (told_say (by simp [tell])) fun _ => rfl

theorem told_addBlocks (bs : List DataBlock) (d : DataHeader) : told (addBlocks bs d).lines = [] :=
  told_bind_mute (by show told (if _ then _ else _) = []; split <;> rfl) fun _ => rfl

theorem told_addEncBlocks (bs : List EncDataBlock) (d : DataHeader) : told (addEncBlocks bs d).lines = [] :=
  told_bind_mute (by show told (if _ then _ else _) = []; split <;> rfl) fun _ => rfl

theorem told_newHeader (m : HMode) (r : Rand) : told (newHeader m r).lines = [.mode m.toByte.toNat] := by
  unfold newHeader
  rw [told_say_bind, told_bind (getHash_res m), told_bind (getHash_res m), told_getHash, told_quiet]
  rfl

theorem newHeader_good (m : HMode) {r : Rand} (hr : r.good = true) : ∃ d, (newHeader m r).res = .ok d := by
  have e0 := new_good m.toByte r hr
  rw [HMode.ofByte_toByte] at e0
  simp only at e0
  have h : (newHeader m r).res = DataHeader.new m.toByte r := by
    simp only [newHeader, bind_res, say_res, getHash_res, quiet_res, ok_bind]
  exact ⟨_, h.trans e0⟩

theorem told_setHeaderTry {p : DataHeaderParts} {m : HMode} {v s : Bytes} (h : PartsOk p m v s) {r : Rand} (hr : r.good = true) :
    told (setHeaderTry p r).lines = facts m p.ch1 p.ch2 v.data := by
  obtain ⟨d0, h0⟩ := newHeader_good m hr
  have e1 : ∀ d : DataHeader, (setFileDataMode d 1).res = .ok (DataHeader.clear { d with dh := { d.dh with fileMode := some 1 } }) := by
    intro d
    show d.setFileDataMode 1 = _
    simp [DataHeader.setFileDataMode, DataHeaderParts.setFileDataMode, fileModeValid]
  have e2 : ∀ d, setChainHash1 d p.ch1 = ⟨[⟨.verbose, .text "setting chainhash1: " :: chain p.ch1⟩],
      .ok (DataHeader.clear { d with dh := { d.dh with ch1 := p.ch1 } })⟩ := by
    intro d
    unfold setChainHash1
    rw [h.ch1.val, if_neg (by decide), assign_good h.ch1]
    rfl
  have e3 : ∀ d, setChainHash2 d p.ch2 = ⟨[⟨.verbose, .text "setting chainhash2: " :: chain p.ch2⟩],
      .ok (DataHeader.clear { d with dh := { d.dh with ch2 := p.ch2 } })⟩ := by
    intro d
    unfold setChainHash2
    rw [h.ch2.val, if_neg (by decide), assign_good h.ch2]
    rfl
  have t1 : told [⟨.verbose, .text "setting chainhash1: " :: chain p.ch1⟩] = [.ch1 p.ch1.desc] := by
    show List.filterMap tell _ = _
    rw [List.filterMap_cons, chain_good h.ch1, if_pos rfl]; rfl
  have t2 : told [⟨.verbose, .text "setting chainhash2: " :: chain p.ch2⟩] = [.ch2 p.ch2.desc] := by
    show List.filterMap tell _ = _
    rw [List.filterMap_cons, chain_good h.ch2, if_neg (by decide), if_pos rfl]; rfl
  unfold setHeaderTry
  have g1 : DataHeaderParts.get p.hashMode = .ok m := by rw [h.hm]; rfl
  have g2 : DataHeaderParts.get p.fileMode = .ok 1 := by rw [h.fm]; rfl
  have g3 : DataHeaderParts.get p.validator = .ok v := by rw [h.vl.1]; rfl
  rw [told_quiet_bind g1, told_bind h0, told_newHeader, told_quiet_bind g2, told_bind (e1 _), told_setFileDataMode, e2,
    told_bind rfl, e3, told_bind rfl, told_quiet_bind g3]
  simp only [t1, t2]
  have t3 : ∀ (d : DataHeader) (g : DataHeader → Logged DataHeader), (∀ d, told (g d).lines = []) →
      told (setValidPasswordHashBytes d v >>= g).lines = [.validator v.data] := by
    intro d g hg
    have : told (setValidPasswordHashBytes d v).lines = [.validator v.data] := by
      unfold setValidPasswordHashBytes
      rw [told_say_bind, told_quiet]
      show List.filterMap tell _ ++ _ = _
      simp [tell]
    show told (Logged.bind _ g).lines = _
    unfold Logged.bind
    split
    · rw [told_append, this, hg]; rfl
    · exact this
    · exact this
  rw [t3]
  · rfl
  intro d
  refine told_bind_mute (told_quiet _) fun s => told_bind_mute (told_setEncSalt _ _) fun d =>
    told_bind_mute (told_addBlocks _ _) fun d => told_addEncBlocks _ _

theorem told_setHeaderParts {p : DataHeaderParts} {m : HMode} {v s : Bytes} (h : PartsOk p m v s) {r : Rand} (hr : r.good = true) :
    told (setHeaderParts p r).lines = facts m p.ch1 p.ch2 v.data := by
  have h1 := told_setHeaderTry h hr
  unfold setHeaderParts
  show told (Logged.bind _ _).lines = _
  have h2 : told (Logged.attempt (setHeaderTry p r) (fun x =>
      ⟨.error, [.text "An error occurred while setting the header parts (error msg: ", .what x, .text ")"]⟩)).lines =
        facts m p.ch1 p.ch2 v.data := by
    show told (_ ++ _) = _
    rw [told_append, h1]
    have : ∀ x : Res DataHeader, told (caught (fun x =>
      ⟨.error, [.text "An error occurred while setting the header parts (error msg: ", .what x, .text ")"]⟩) x) = [] := by
      intro x
      unfold caught
      split <;> rfl
    rw [this, List.append_nil]
  unfold Logged.bind
  split
  · rw [told_append, h2]
    rename_i a _
    cases a <;> exact List.append_nil _
  · exact h2
  · exact h2

theorem told_timeoutLine (t : Nat) (i : Option Nat) (o : Out Bytes) : told (timeoutLine t i o) = [] := by
  unfold timeoutLine
  split <;> rfl

theorem told_performLine (c : ChainHash) (t : Nat) : told (performLine c t).lines = [] :=
  told_bind_mute (told_quiet _) fun _ => told_bind_mute (told_quiet _) fun _ => told_bind_mute rfl fun _ => rfl

theorem told_performStr (c : ChainHash) (H : HashFn) (pw : List Byte) (t : Nat) (clk : Nat → Nat) :
    told (performStr c H pw t clk).lines = [] :=
  told_bind_mute (told_performLine _ _) fun _ => told_bind_mute (told_quiet _) fun _ =>
    told_bind_mute (told_timeoutLine _ _ _) fun _ => rfl

theorem told_performBytes (c : ChainHash) (H : HashFn) (b : Bytes) (t : Nat) (clk : Nat → Nat) :
    told (performBytes c H b t clk).lines = [] :=
  told_bind_mute (told_performLine _ _) fun _ => told_bind_mute (told_quiet _) fun _ =>
    told_bind_mute (told_timeoutLine _ _ _) fun _ => rfl

theorem told_lastSteps {hs : Hashes} {e : Env} {ds : SettingsIters} {hm : HMode} {c1 c2 : ChainHash} {h1 v : Bytes}
    (g1 : c1.Good) (g2 : c2.Good) (hb : Api.BlocksOk ds) (hl : v.data.length = hm.size) (hr2 : (e.rand 2).good = true)
    (hr3 : (e.rand 3).good = true) :
    told (lastSteps hs e ⟨some 1, some hm, none, none, ds.dec, ds.enc, c1, c2⟩ hm h1 v).lines = facts hm c1 c2 v.data := by
  have hle := hm.size_le
  have hsz : (hs.get hm).size = hm.size := Hashes.get_size hs hm
  have e2 : (⟨some 1, some hm, none, none, ds.dec, ds.enc, c1, c2⟩ : DataHeaderParts).setValidPasswordHash v =
      .ok ⟨some 1, some hm, some v, none, ds.dec, ds.enc, c1, c2⟩ := by
    simp only [DataHeaderParts.setValidPasswordHash, DataHeaderParts.getHashSize, DataHeaderParts.get, Res.bind_ok]
    rw [if_pos (show hm.size = v.len from hl.symm)]
  have e3 : (⟨some 1, some hm, some v, none, ds.dec, ds.enc, c1, c2⟩ : DataHeaderParts).setEncSalt
      ⟨(e.rand 2).take hm.size, hm.size⟩ =
      .ok ⟨some 1, some hm, some v, some ⟨(e.rand 2).take hm.size, hm.size⟩, ds.dec, ds.enc, c1, c2⟩ := by
    simp only [DataHeaderParts.setEncSalt, DataHeaderParts.getHashSize, DataHeaderParts.get, Res.bind_ok]
    rw [if_pos (show hm.size = Bytes.len ⟨(e.rand 2).take hm.size, hm.size⟩ from (Rand.length_take _ _).symm)]
  have pok : PartsOk ⟨some 1, some hm, some v, some ⟨(e.rand 2).take hm.size, hm.size⟩, ds.dec, ds.enc, c1, c2⟩ hm v
      ⟨(e.rand 2).take hm.size, hm.size⟩ := ⟨rfl, rfl, ⟨rfl, hl⟩, ⟨rfl, Rand.length_take _ _⟩, g1, g2, hb.1, hb.2⟩
  unfold lastSteps
  rw [told_quiet_bind e2, told_quiet_bind (by rw [hsz]; exact Api.fillrandom_good _ _ hr2 (by omega)), told_quiet_bind e3]
  have h5 := told_setHeaderParts pok hr3
  show told (Logged.bind _ _).lines = _
  unfold Logged.bind
  split
  · rw [told_append, h5]; exact List.append_nil _
  · exact h5
  · exact h5

theorem told_makeHeader {hs : Hashes} {e : Env} {ds : SettingsIters} {hm : HMode} {m1 m2 : CHMode} {n1 n2 : UInt64}
    (h : ds.Are hm m1 m2 n1 n2) {c1 c2 : ChainHash} (g1 : c1.Good) (g2 : c2.Good) (hb : Api.BlocksOk ds)
    (pw : List Byte) (t : Nat) (hl : ¬ Api.Late e t c1.desc.iters c2.desc.iters) (hr2 : (e.rand 2).good = true)
    (hr3 : (e.rand 3).good = true) :
    told (makeHeader hs pw ds t e c1 c2).lines =
      facts hm c1 c2 (c2.desc.digest (hs.get hm).h (c1.desc.digest (hs.get hm).h pw)) := by
  have hsz : (hs.get hm).size = hm.size := Hashes.get_size hs hm
  have hrem : (if t ≠ 0 then t - e.peek else t) = t - e.peek := by split <;> omega
  rcases g1.str (hs.get hm) pw t (e.clk 0) with ⟨hh, r1⟩ | ⟨hh, x1, r1, d1, w1, l1⟩
  · exact absurd (.inl hh) hl
  by_cases ht : t ≠ 0 ∧ t ≤ e.peek
  · exact absurd (.inr (.inl ht)) hl
  rcases g2.bytes (hs.get hm) x1 w1 (t - e.peek) (e.clk 1) with ⟨hh2, r2⟩ | ⟨hh2, x2, r2, d2, w2, l2⟩
  · exact absurd (.inr (.inr hh2)) hl
  have k1 : ds.getFileDataMode = .ok 1 := by simp only [SettingsIters.getFileDataMode, h.efm, DataHeaderParts.get]
  have k2 : ds.getHashMode = .ok hm.toByte.toNat := by simp only [SettingsIters.getHashMode, h.ehm, DataHeaderParts.get]
  have k3 : ({ DataHeaderParts.empty with dec := ds.dec, enc := ds.enc, ch1 := c1, ch2 := c2 } :
      DataHeaderParts).setFileDataMode (UInt8.ofNat 1) = .ok ⟨some 1, none, none, none, ds.dec, ds.enc, c1, c2⟩ := by
    simp only [DataHeaderParts.setFileDataMode]
    rw [if_pos (by decide)]; rfl
  have k4 : (⟨some 1, none, none, none, ds.dec, ds.enc, c1, c2⟩ : DataHeaderParts).setHashMode (UInt8.ofNat hm.toByte.toNat) =
      .ok ⟨some 1, some hm, none, none, ds.dec, ds.enc, c1, c2⟩ := by
    simp only [DataHeaderParts.setHashMode, UInt8.ofNat_toNat, HMode.ofByte_toByte]
  unfold makeHeader
  rw [told_quiet_bind k1, told_quiet_bind k3, told_quiet_bind k2, told_quiet_bind k4,
    told_quiet_bind (show DataHeaderParts.get (some hm) = .ok hm from rfl), told_bind (getHash_res hm), told_bind (getHash_res hm),
    told_getHash, told_bind ((performStr_res _ _ _ _ _).trans r1), told_performStr]
  simp only [if_neg ht, hrem]
  rw [told_bind ((performBytes_res _ _ _ _ _).trans r2), told_performBytes]
  simp only
  rw [told_lastSteps g1 g2 hb (l2.trans hsz) hr2 hr3, d2, d1]
  rfl

theorem tell_chain (s : Sev) (c : ChainHash) : tell ⟨s, chain c⟩ = none := by
  obtain ⟨m, d, n, v⟩ := c
  cases m <;> rfl

theorem told_isValid (c : ChainHash) : told (isValid c) = [] := by
  have key : ∀ (l : Line), tell l = none → ∀ c : ChainHash, told [l, ⟨.debug, chain c⟩] = [] := by
    intro l hl c
    show List.filterMap tell _ = []
    rw [List.filterMap_cons, hl, List.filterMap_cons, tell_chain]; rfl
  unfold isValid
  repeat' split
  · rfl
  · exact key _ rfl _
  · exact key _ (by simp [tell]) _
  · exact key _ rfl _

theorem told_assign (c : ChainHash) : told (assign c).lines = [] :=
  told_bind_mute (told_quiet _) fun _ => told_bind_mute (told_isValid _) fun _ => rfl

theorem told_newChain_any (m : CHMode) (n : Nat) (d : ChainHashData) : told (newChain m n d).lines = [] :=
  told_bind_mute (told_isValid _) fun _ => told_assign _

theorem told_makeChains (ds : SettingsIters) (e : Env) : told (makeChains ds e).lines = [] := by
  refine told_bind_mute (told_quiet _) fun _ => told_bind_mute (told_quiet _) fun _ => told_bind_mute (told_quiet _) fun _ =>
    told_bind_mute (told_quiet _) fun _ => told_bind_mute (told_quiet _) fun _ => told_bind_mute (told_newChain_any _ _ _) fun _ =>
    told_bind_mute (told_quiet _) fun _ => told_bind_mute (told_newChain_any _ _ _) fun _ => told_bind_mute (told_quiet _) fun _ =>
    told_bind_mute (told_quiet _) fun _ => ?_
  split <;> rfl

theorem tell_settings (s : Sev) (t : String) (ds : SettingsIters) (is : List Item) : tell ⟨s, .text t :: settings ds ++ is⟩ = none := by
  obtain ⟨fm, hm, m1, n1, m2, n2, dec, enc⟩ := ds
  cases fm <;> cases hm <;> cases m1 <;> first | rfl | (cases n1 <;> first | rfl | (cases m2 <;> rfl))

/-- lines of a header creation that reaches the last step: they tell the whole way the password is checked -/
theorem told_create {hs : Hashes} {e : Env} {ds : SettingsIters} {hm : HMode} {m1 m2 : CHMode} {n1 n2 : UInt64}
    (h : ds.Are hm m1 m2 n1 n2) (hb : Api.BlocksOk ds) (hr : ∀ i, i < 4 → (e.rand i).good = true) (pw : List Byte) (t : Nat)
    (hl : ¬ Api.Late e t n1.toNat n2.toNat) :
    told (createDataHeaderIters hs 1 pw ds t e).lines =
      facts hm (Api.newChain m1 n1 (e.rand 0)) (Api.newChain m2 n2 (e.rand 1))
        ((Api.newChain m2 n2 (e.rand 1)).desc.digest (hs.get hm).h ((Api.newChain m1 n1 (e.rand 0)).desc.digest (hs.get hm).h pw)) := by
  have hc := Api.Are.complete h
  have k0 : complete ds = ⟨[], .ok true⟩ := by unfold complete; rw [if_pos hc]; rfl
  have k1 : ds.getFileDataMode = .ok 1 := by simp only [SettingsIters.getFileDataMode, h.efm, DataHeaderParts.get]
  have k2 := Api.makeChains_good h (hr 0 (by omega)) (hr 1 (by omega))
  rw [← makeChains_res] at k2
  have k3 := told_makeHeader (hs := hs) (e := e) h (Api.newChain_good m1 n1 (e.rand 0) h.r1) (Api.newChain_good m2 n2 (e.rand 1) h.r2)
    hb pw t hl (hr 2 (by omega)) (hr 3 (by omega))
  unfold createDataHeaderIters
  show told (Bind.bind (m := Logged) _ _).lines = _
  rw [k0, told_bind rfl]
  simp only [Bool.not_true, Bool.false_eq_true, if_false]
  rw [told_say_bind, tell_none (tell_settings _ _ _ _), told_quiet_bind k1]
  rw [if_neg (by decide)]
  have k4 : ∀ l, (Logged.attempt (makeChains ds e) l).res = .ok (some (Api.newChain m1 n1 (e.rand 0), Api.newChain m2 n2 (e.rand 1))) := by
    intro l
    rw [attempt_res, k2]; rfl
  have k5 : ∀ l, told (Logged.attempt (makeChains ds e) l).lines = [] := by
    intro l
    show told (_ ++ _) = []
    rw [told_append, told_makeChains, k2]; rfl
  rw [told_bind (k4 _), k5]
  simp only
  rw [k3]
  rfl

theorem told_headerLine (h : Api.Helper) : told (headerLine h) = [] := by
  unfold headerLine
  split
  · rfl
  · cases h.err <;> rfl

/-- `createDataHeader` where it runs -/
theorem told_call {fl : FileLog} {hs : Hashes} {rest : Api.Helper → Res Api.Helper} {e : Env} {w : World} {pw : List Byte}
    {ds : SettingsIters} {t : Nat} (hc : ds.isComplete = true)
    (hst : w.api.state = .EMPTY_FILE_SELECTED ∨ w.api.state = .DECRYPTED) :
    told (call fl hs rest e w (.createDataHeader pw ds t)).lines =
      told (createDataHeaderIters hs w.api.fileMode pw ds t e).lines := by
  have k0 : complete ds = ⟨[], .ok true⟩ := by unfold complete; rw [if_pos hc]; rfl
  have k1 : told [⟨.debug, [.text "API call made (createDataHeader) with timeout: ", .num t, .text " and Iterations: ", optNum ds.ch1Iters,
      .text " and ", optNum ds.ch2Iters]⟩] = [] := rfl
  have mute : ∀ {α β : Type} (x : Logged α) (f : α → Logged β), (∀ a, told (f a).lines = []) →
      told (x >>= f).lines = told x.lines := by
    intro α β x f hf
    show told (Logged.bind x f).lines = _
    unfold Logged.bind
    split
    · rw [told_append, hf, List.append_nil]
    · rfl
    · rfl
  rcases hst with hst | hst
  · simp only [call]
    rw [k0, told_bind rfl]
    simp only [Bool.not_true, Bool.false_eq_true, if_false]
    rw [told_say_bind, k1]
    simp only [hst]
    rw [mute _ _ fun _ => rfl]
    unfold createForEmpty
    rw [mute _ _ fun h => told_bind_mute (told_headerLine _) fun _ => told_bind_mute (told_quiet _) fun _ =>
      told_bind_mute (by split <;> rfl) fun _ => rfl]
    rfl
  · simp only [call]
    rw [k0, told_bind rfl]
    simp only [Bool.not_true, Bool.false_eq_true, if_false]
    rw [told_say_bind, k1]
    simp only [hst]
    rw [mute _ _ fun _ => rfl]
    unfold createForOpen
    rw [told_say_bind, tell_none (tell_settings _ _ _ _)]
    rw [mute _ _ fun h => told_bind_mute (told_headerLine _) fun _ => told_quiet _]
    rfl

end Log
end Verif
