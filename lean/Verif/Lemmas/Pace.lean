import Verif.Lemmas.HeaderExact
import Verif.Model.Api

/- What a call answers does not depend on how the streams deliver their bytes, nor, if no time limit is hit, on the clocks. -/
namespace Verif

/-! ### streams -/

/-- the same bytes are left, delivered in other pieces -/
def IStream.Same (s t : IStream) : Prop := s.rest = t.rest ∧ s.eof = t.eof

theorem IStream.Same.refl (s : IStream) : s.Same s := ⟨rfl, rfl⟩

theorem readData_mod32 (s : IStream) (b : Bytes) (n : Nat) : readData s b n = readData s b (n % 2 ^ 32) := by
  simp [readData]

theorem readData_ended {s : IStream} (h : s.eof = true) (b : Bytes) (n : Nat) (hn : n < 2 ^ 32) :
    readData s b n = if b.cap - b.data.length < n then .ok (none, s) else if n = 0 then .ok (some b, s) else .ok (none, s) := by
  simp only [readData, Nat.mod_eq_of_lt hn]
  split
  · rfl
  · have : readLoop (n + 2) s [] n = if n = 0 then .ok (some [], s) else .ok (none, s) := by
      unfold readLoop
      simp only [IStream.readsome, h, if_true, List.nil_append, List.length_nil]
      by_cases h0 : n = 0
      · rw [if_pos h0, if_neg (by simp [h0])]
      · rw [if_neg h0, if_pos (fun h => h0 h.symm)]
    rw [this]
    split
    · show Res.ok (some (⟨b.data ++ [], b.cap⟩ : Bytes), s) = _
      rw [List.append_nil]
    · rfl

/-- reading from such streams gives the same and leaves such streams -/
theorem readData_same {s t : IStream} (h : s.Same t) (b : Bytes) (n : Nat) :
    ∃ o s' t', readData s b n = .ok (o, s') ∧ readData t b n = .ok (o, t') ∧ s'.Same t' := by
  rw [readData_mod32 s, readData_mod32 t]
  generalize hk : n % 2 ^ 32 = k
  have hk : k < 2 ^ 32 := by omega
  obtain ⟨hr, he⟩ := h
  cases hs : s.eof with
  | true =>
    rw [readData_ended hs b k hk, readData_ended (he ▸ hs) b k hk]
    split
    · exact ⟨_, _, _, rfl, rfl, hr, he⟩
    · split
      · exact ⟨_, _, _, rfl, rfl, hr, he⟩
      · exact ⟨_, _, _, rfl, rfl, hr, he⟩
  | false =>
    obtain ⟨s', h1⟩ := readData_spec s b k hs hk
    obtain ⟨t', h2⟩ := readData_spec t b k (he ▸ hs) hk
    rw [← hr] at h2
    by_cases c1 : b.cap - b.data.length < k
    · rw [if_pos c1] at h1 h2
      obtain ⟨h1, rfl⟩ := h1
      obtain ⟨h2, rfl⟩ := h2
      exact ⟨_, _, _, h1, h2, hr, he⟩
    · rw [if_neg c1] at h1 h2
      by_cases c2 : k ≤ s.rest.length
      · rw [if_pos c2] at h1 h2
        obtain ⟨h1, a1, b1⟩ := h1
        obtain ⟨h2, a2, b2⟩ := h2
        exact ⟨_, _, _, h1, h2, a1.trans a2.symm, b1.trans b2.symm⟩
      · rw [if_neg c2] at h1 h2
        obtain ⟨h1, a1, b1⟩ := h1
        obtain ⟨h2, a2, b2⟩ := h2
        exact ⟨_, _, _, h1, h2, b1.trans b2.symm, a1.trans a2.symm⟩

theorem readHeaderSize_same {s t : IStream} (h : s.Same t) (n : Nat) :
    FileHandler.readHeaderSize s n = FileHandler.readHeaderSize t n := by
  obtain ⟨o, s1, t1, e1, e2, h1⟩ := readData_same h (Bytes.empty 8) 8
  unfold FileHandler.readHeaderSize
  rw [e1, e2]
  simp only [Res.bind_ok]
  cases o with
  | none => rfl
  | some tmp =>
    simp only
    cases tmp.toLong with
    | ok v =>
      simp only [Res.bind_ok]
      split
      · rfl
      · cases tmp.setLen 0 with
        | ok tmp =>
          simp only [Res.bind_ok]
          obtain ⟨o, s2, t2, e3, e4, -⟩ := readData_same h1 tmp 8
          rw [e3, e4]
          rfl
        | exn x => rfl
        | fatal f => rfl
    | exn x => rfl
    | fatal f => rfl

/-- the header object or error found, without the position -/
def parsed : Res (Step IStream DataHeader) → Res (Out DataHeader)
  | .ok (.val d _) => .ok (.success d)
  | .ok (.stop c) => .ok (.fail c)
  | .exn x => .exn x
  | .fatal f => .fatal f

theorem setHeaderStream_same (hs : Hashes) (r : Rand) {s t : IStream} (h : s.Same t) :
    parsed (HeaderParse.setHeaderStream hs r s) = parsed (HeaderParse.setHeaderStream hs r t) := by
  obtain ⟨hr, he⟩ := h
  cases hs1 : s.eof with
  | true =>
    have key : ∀ u : IStream, u.eof = true → HeaderParse.setHeaderStream hs r u = .ok (.stop .ERR_NOT_ENOUGH_DATA) := by
      intro u hu
      have h1 : HeaderParse.rdLong HeaderParse.rdStream u = .ok (.stop .ERR_NOT_ENOUGH_DATA) := by
        refine Par.bind_stop_eq ?_
        unfold HeaderParse.rdStream
        rw [readData_ended hu _ _ (by decide)]
        rfl
      unfold HeaderParse.setHeaderStream HeaderParse.rdHeader
      rw [Par.bind_stop_eq h1]
      rfl
    rw [key s hs1, key t (he ▸ hs1)]
  | false =>
    have h1 := HeaderParse.setHeaderStream_eq hs r s hs1
    have h2 := HeaderParse.setHeaderStream_eq hs r t (he ▸ hs1)
    rw [← hr] at h2
    generalize Res.noexcept (HeaderParse.rdHeader HeaderParse.rdList List.length hs r s.rest) = y at h1 h2
    cases y with
    | ok v =>
      cases v with
      | val a l =>
        obtain ⟨s1, e1, -⟩ := h1
        obtain ⟨s2, e2, -⟩ := h2
        rw [e1, e2]; rfl
      | stop c =>
        rw [show HeaderParse.setHeaderStream hs r s = .ok (.stop c) from h1,
          show HeaderParse.setHeaderStream hs r t = .ok (.stop c) from h2]
    | exn x =>
      rw [show HeaderParse.setHeaderStream hs r s = .exn x from h1, show HeaderParse.setHeaderStream hs r t = .exn x from h2]
    | fatal x =>
      rw [show HeaderParse.setHeaderStream hs r s = .fatal x from h1, show HeaderParse.setHeaderStream hs r t = .fatal x from h2]

/-- the chain after reading, without the position -/
def chained : Res (Chain × IStream) → Res Chain
  | .ok (c, _) => .ok c
  | .exn x => .exn x
  | .fatal f => .fatal f

theorem streamLoop_same (dir : Dir) (H : HashFn) (len fuel : Nat) : ∀ (written : Nat) (s t : IStream) (c : Chain), s.Same t →
    chained (Chain.streamLoop dir H len fuel written s c) = chained (Chain.streamLoop dir H len fuel written t c) := by
  induction fuel with
  | zero => intro written s t c _; rfl
  | succ fuel ih =>
    intro written s t c h
    unfold Chain.streamLoop
    cases Bytes.new (minInt (c.freeSpace H) (len - written)) with
    | exn x => rfl
    | fatal x => rfl
    | ok part =>
      simp only [Res.bind_ok]
      obtain ⟨o, s1, t1, e1, e2, h1⟩ := readData_same h part part.cap
      rw [e1, e2]
      simp only [Res.bind_ok]
      cases o with
      | none => rfl
      | some part =>
        simp only
        cases c.curAdd dir H part with
        | exn x => rfl
        | fatal x => rfl
        | ok c =>
          simp only [Res.bind_ok]
          split
          · cases c.addBlock dir H with
            | exn x => rfl
            | fatal x => rfl
            | ok c =>
              simp only [Res.bind_ok]
              exact ih _ _ _ _ h1
          · rfl

theorem addStream_same (dir : Dir) (H : HashFn) (c : Chain) {s t : IStream} (h : s.Same t) (len : Nat) :
    chained (c.addStream dir H s len) = chained (c.addStream dir H t len) := by
  unfold Chain.addStream
  cases c.start dir H len with
  | exn x => rfl
  | fatal x => rfl
  | ok c => exact streamLoop_same dir H len _ _ _ _ _ h

/-! ### clocks -/

/-- the same result, unless one of them hit the time limit -/
def SameInTime {α : Type} (a b : Res (Out α)) : Prop := a = b ∨ a = .ok .timeout ∨ b = .ok .timeout

theorem SameInTime.bind {α β : Type} (x : Res β) {f g : β → Res (Out α)} (h : ∀ v, SameInTime (f v) (g v)) :
    SameInTime (x >>= f) (x >>= g) := by
  cases x with
  | ok v => exact h v
  | exn e => exact .inl rfl
  | fatal e => exact .inl rfl

theorem SameInTime.noexcept {α : Type} {a b : Res (Out α)} (h : SameInTime a b) : SameInTime (Res.noexcept a) (Res.noexcept b) := by
  rcases h with rfl | rfl | rfl
  · exact .inl rfl
  · exact .inr (.inl rfl)
  · exact .inr (.inr rfl)

theorem SameInTime.sigma {α β : Type} {a b : Res (Out α)} {f g : Out α → Res β} {late : β} (hf : f .timeout = .ok late) (hg : g .timeout = .ok late)
    (h : SameInTime a b) (hv : ∀ o, f o = g o ∨ f o = .ok late ∨ g o = .ok late) :
    (a >>= f) = (b >>= g) ∨ (a >>= f) = .ok late ∨ (b >>= g) = .ok late := by
  rcases h with rfl | rfl | rfl
  · cases a with
    | ok v => exact hv v
    | exn x => exact .inl rfl
    | fatal x => exact .inl rfl
  · exact .inr (.inl hf)
  · exact .inr (.inr hg)

theorem same_bind {α β : Type} {late : β} (x : Res α) {f g : α → Res β} (h : ∀ v, f v = g v ∨ f v = .ok late ∨ g v = .ok late) :
    (x >>= f) = (x >>= g) ∨ (x >>= f) = .ok late ∨ (x >>= g) = .ok late := by
  cases x with
  | ok v => exact h v
  | exn e => exact .inl rfl
  | fatal e => exact .inl rfl

namespace PwFunc

theorem chLoop_same {α : Type} (out : α → Bytes) (body : α → Res α) (t t' : Nat) (clk clk' : Nat → Nat) (n : Nat) :
    ∀ (i : Nat) (a : α), SameInTime (chLoop t clk body n i a >>= fun r => pure (chOut out r))
      (chLoop t' clk' body n i a >>= fun r => pure (chOut out r)) := by
  induction n with
  | zero => intro i a; exact .inl rfl
  | succ n ih =>
    intro i a
    unfold chLoop
    cases body a with
    | exn x => exact .inl rfl
    | fatal x => exact .inl rfl
    | ok a =>
      simp only [Res.bind_ok]
      by_cases h1 : t ≠ 0 ∧ i % timeoutIterations = 0
      · rw [if_pos h1]
        by_cases h2 : t ≤ clk i
        · rw [if_pos h2]; exact .inr (.inl rfl)
        · rw [if_neg h2]
          by_cases h3 : t' ≠ 0 ∧ i % timeoutIterations = 0
          · rw [if_pos h3]
            by_cases h4 : t' ≤ clk' i
            · rw [if_pos h4]; exact .inr (.inr rfl)
            · rw [if_neg h4]; exact ih _ _
          · rw [if_neg h3]; exact ih _ _
      · rw [if_neg h1]
        by_cases h3 : t' ≠ 0 ∧ i % timeoutIterations = 0
        · rw [if_pos h3]
          by_cases h4 : t' ≤ clk' i
          · rw [if_pos h4]; exact .inr (.inr rfl)
          · rw [if_neg h4]; exact ih _ _
        · rw [if_neg h3]; exact ih _ _

theorem chLoop_intime {α : Type} (body : α → Res α) {t : Nat} {clk : Nat → Nat} (ht : t = 0 ∨ ∀ i, clk i < t) (clk' : Nat → Nat)
    (n : Nat) : ∀ (i : Nat) (a : α), chLoop t clk body n i a = chLoop 0 clk' body n i a := by
  induction n with
  | zero => intro i a; rfl
  | succ n ih =>
    intro i a
    unfold chLoop
    cases body a with
    | exn x => rfl
    | fatal x => rfl
    | ok a =>
      simp only [Res.bind_ok]
      rw [if_neg (c := (0 ≠ 0 ∧ i % timeoutIterations = 0)) (by simp)]
      by_cases h1 : t ≠ 0 ∧ i % timeoutIterations = 0
      · rw [if_pos h1, if_neg (Nat.not_le.mpr ((ht.resolve_left h1.1) i))]
        exact ih _ _
      · rw [if_neg h1]
        exact ih _ _

end PwFunc

namespace ChainHashModes
open PwFunc

theorem performStr_same (ch : ChainHash) (H : HashFn) (data : List Byte) (t t' : Nat) (clk clk' : Nat → Nat) :
    SameInTime (performStr ch H data t clk) (performStr ch H data t' clk') := by
  unfold performStr
  refine .bind _ fun m => .bind _ fun n => .bind _ fun d => ?_
  cases m with
  | normal => exact (SameInTime.bind _ fun _ => chLoop_same _ _ _ _ _ _ _ _ _).noexcept
  | constSalt => exact .bind _ fun _ => (SameInTime.bind _ fun _ => chLoop_same _ _ _ _ _ _ _ _ _).noexcept
  | count => exact .bind _ fun _ => .bind _ fun _ => (SameInTime.bind _ fun _ => chLoop_same _ _ _ _ _ _ _ _ _).noexcept
  | constCount =>
    exact .bind _ fun _ => .bind _ fun _ => .bind _ fun _ => (SameInTime.bind _ fun _ => chLoop_same _ _ _ _ _ _ _ _ _).noexcept
  | quad =>
    exact .bind _ fun _ => .bind _ fun _ => .bind _ fun _ => .bind _ fun _ => .bind _ fun _ => .bind _ fun _ => .bind _ fun _ =>
      .bind _ fun _ => (SameInTime.bind _ fun _ => chLoop_same _ _ _ _ _ _ _ _ _).noexcept

theorem performBytes_same (ch : ChainHash) (H : HashFn) (data : Bytes) (t t' : Nat) (clk clk' : Nat → Nat) :
    SameInTime (performBytes ch H data t clk) (performBytes ch H data t' clk') := by
  unfold performBytes
  refine .bind _ fun m => .bind _ fun n => .bind _ fun d => ?_
  cases m with
  | normal => exact (chLoop_same _ _ _ _ _ _ _ _ _).noexcept
  | constSalt => exact .bind _ fun _ => (chLoop_same _ _ _ _ _ _ _ _ _).noexcept
  | count => exact .bind _ fun _ => .bind _ fun _ => (chLoop_same _ _ _ _ _ _ _ _ _).noexcept
  | constCount =>
    exact .bind _ fun _ => .bind _ fun _ => .bind _ fun _ => (chLoop_same _ _ _ _ _ _ _ _ _).noexcept
  | quad =>
    exact .bind _ fun _ => .bind _ fun _ => .bind _ fun _ => .bind _ fun _ => .bind _ fun _ => .bind _ fun _ => .bind _ fun _ =>
      .bind _ fun _ => (chLoop_same _ _ _ _ _ _ _ _ _).noexcept

theorem performStr_intime (ch : ChainHash) (H : HashFn) (data : List Byte) {t : Nat} {clk : Nat → Nat} (ht : t = 0 ∨ ∀ i, clk i < t)
    (clk' : Nat → Nat) : performStr ch H data t clk = performStr ch H data 0 clk' := by
  simp only [performStr, chainhashStr, chainhashConstStr, chainhashCountStr, chainhashConstCountStr, chainhashQuadStr,
    chLoop_intime _ ht clk']

theorem performBytes_intime (ch : ChainHash) (H : HashFn) (data : Bytes) {t : Nat} {clk : Nat → Nat} (ht : t = 0 ∨ ∀ i, clk i < t)
    (clk' : Nat → Nat) : performBytes ch H data t clk = performBytes ch H data 0 clk' := by
  simp only [performBytes, chainhashBytes, chainhashConstBytes, chainhashCountBytes, chainhashConstCountBytes, chainhashQuadBytes,
    chLoop_intime _ ht clk']

end ChainHashModes

/-! ### calls -/

/-- the same circumstances at another pace: other clocks, other portions -/
def Env.paced (e : Env) (q : Nat → Nat → Nat) (c : Nat → Nat → Nat) (k : Nat) : Env := { e with sched := q, clk := c, peek := k }

theorem FS.openIn_same (fs : FS) (e : Env) (q c : Nat → Nat → Nat) (k : Nat) (p : Path) (i : Nat) :
    (fs.openIn (e.paced q c k) p i).Same (fs.openIn e p i) := by
  unfold FS.openIn
  cases fs p with
  | file b =>
    show (if e.canRead p then (⟨b, q i, false, false⟩ : IStream) else ⟨[], q i, false, true⟩).Same
      (if e.canRead p then ⟨b, e.sched i, false, false⟩ else ⟨[], e.sched i, false, true⟩)
    by_cases h : e.canRead p = true
    · rw [if_pos h, if_pos h]; exact ⟨rfl, rfl⟩
    · rw [if_neg h, if_neg h]; exact ⟨rfl, rfl⟩
  | _ => exact ⟨rfl, rfl⟩

namespace FileHandler
variable (hs : Hashes) (e : Env) (q c : Nat → Nat → Nat) (k : Nat) (fs : FS)

theorem new_same (p : Path) (i : Nat) : FileHandler.new (e.paced q c k) fs p i = FileHandler.new e fs p i := by
  have h1 : FileHandler.update (e.paced q c k) fs p i = FileHandler.update e fs p i := by
    unfold FileHandler.update
    simp only [readHeaderSize_same (fs.openIn_same e q c k p i)]
    rfl
  unfold FileHandler.new
  rw [h1]
  rfl

theorem getFileHandler_same (p : Path) (i : Nat) : Api.getFileHandler (e.paced q c k) fs p i = Api.getFileHandler e fs p i := by
  unfold Api.getFileHandler
  rw [new_same]
  rfl

theorem getDataHeader_same (f : FileHandler) (i : Nat) (r : Rand) :
    f.getDataHeader hs (e.paced q c k) fs i r = f.getDataHeader hs e fs i r := by
  have h := setHeaderStream_same hs r (fs.openIn_same e q c k f.path i)
  have key : ∀ x : Res (Step IStream DataHeader), (x >>= fun y => match y with
      | .val d _ => .ok (.success d)
      | .stop c => .ok (.fail c)) = parsed x := by
    intro x
    rcases x with (⟨⟩ | ⟨⟩) | _ | _ <;> rfl
  unfold FileHandler.getDataHeader
  exact congrArg Res.noexcept ((key _).trans (h.trans (key _).symm))

theorem getAllBytes_same (f : FileHandler) (i : Nat) : f.getAllBytes (e.paced q c k) fs i = f.getAllBytes e fs i := by
  unfold FileHandler.getAllBytes
  have : measure (e.paced q c k) fs f.path = measure e fs f.path := rfl
  rw [this]
  obtain ⟨o, s1, t1, e1, e2, -⟩ := readData_same (fs.openIn_same e q c k f.path i)
    (Bytes.empty (measure e fs f.path)) (measure e fs f.path)
  simp only [e1, e2]
  rfl

theorem isDataHeader_same (f : FileHandler) (m : Byte) (i : Nat) (r : Rand) :
    f.isDataHeader hs (e.paced q c k) fs m i r = f.isDataHeader hs e fs m i r := by
  unfold FileHandler.isDataHeader
  rw [getDataHeader_same]

theorem getDataStream_same (f : FileHandler) (i : Nat) : (f.getDataStream (e.paced q c k) fs i).Same (f.getDataStream e fs i) := by
  obtain ⟨h1, h2⟩ := fs.openIn_same e q c k f.path i
  exact ⟨congrArg (List.drop f.headerSize) h1, h2⟩

end FileHandler

namespace Api
variable {hs : Hashes} (e : Env) (q c : Nat → Nat → Nat) (k : Nat)

theorem scan_paced (fs : FS) (mode : Byte) (dir : Path) (ns : List (List Byte)) : ∀ i ret,
    getRelevantFileNames.scan hs (e.paced q c k) fs mode dir ns i ret = getRelevantFileNames.scan hs e fs mode dir ns i ret := by
  induction ns with
  | nil => intro i ret; rfl
  | cons n ns ih =>
    intro i ret
    unfold getRelevantFileNames.scan
    simp only [FileHandler.getFileHandler_same, FileHandler.isDataHeader_same, ih]
    rfl

theorem selectFile_same (w : World) (p : Path) : selectFile hs (e.paced q c k) w p = selectFile hs e w p := by
  unfold selectFile selectNonEmptyFile
  simp only [FileHandler.getFileHandler_same, FileHandler.getDataHeader_same]
  rfl

theorem decryptTry_same (w : World) : decryptTry hs (e.paced q c k) w = decryptTry hs e w := by
  unfold decryptTry
  refine bind_congr fun d => bind_congr fun p => bind_congr fun m => bind_congr fun salt => bind_congr fun ch => bind_congr fun f => ?_
  have h := addStream_same .dec (hs.get m) ch (FileHandler.getDataStream_same e q c k w.fs f 0) f.getDataSize
  generalize ch.addStream .dec (hs.get m) (f.getDataStream (e.paced q c k) w.fs 0) f.getDataSize = x at h ⊢
  generalize ch.addStream .dec (hs.get m) (f.getDataStream e w.fs 0) f.getDataSize = y at h ⊢
  rcases x with ⟨c1, s1⟩ | x | x <;> rcases y with ⟨c2, s2⟩ | y | y <;> cases h <;> rfl

theorem encryptTry_same (s : Session) (d : DataHeader) (data : Bytes) :
    encryptTry hs (e.paced q c k) s d data = encryptTry hs e s d data := rfl

/-- the result of a check of a password at another pace -/
theorem verifyTry_same (s : Session) (pw : List Byte) (t : Nat) :
    verifyTry hs (e.paced q c k) s pw t = verifyTry hs e s pw t ∨ verifyTry hs (e.paced q c k) s pw t = .ok (.timeout, s) ∨
      verifyTry hs e s pw t = .ok (.timeout, s) := by
  unfold verifyTry
  cases deref s.dh with
  | exn x => exact .inl rfl
  | fatal x => exact .inl rfl
  | ok d =>
    simp only [Res.bind_ok]
    cases d.getDataHeaderParts with
    | exn x => exact .inl rfl
    | fatal x => exact .inl rfl
    | ok p =>
      simp only [Res.bind_ok]
      cases DataHeaderParts.get p.hashMode with
      | exn x => exact .inl rfl
      | fatal x => exact .inl rfl
      | ok m =>
        simp only [Res.bind_ok]
        refine SameInTime.sigma rfl rfl (ChainHashModes.performStr_same p.ch1 (hs.get m) pw t t _ _) fun o => ?_
        cases o with
        | fail x => exact .inl rfl
        | timeout => exact .inl rfl
        | success h1 =>
          simp only
          split
          · exact .inr (.inl rfl)
          · split
            · exact .inr (.inr rfl)
            · exact SameInTime.sigma rfl rfl (ChainHashModes.performBytes_same p.ch2 (hs.get m) h1 _ _ _ _) fun o => .inl rfl

theorem verifyPassword_same (s : Session) (pw : List Byte) (t : Nat) :
    verifyPassword hs (e.paced q c k) s pw t = verifyPassword hs e s pw t ∨
      verifyPassword hs (e.paced q c k) s pw t = .ok (.timeout, s) ∨ verifyPassword hs e s pw t = .ok (.timeout, s) := by
  unfold verifyPassword
  rcases verifyTry_same e q c k s pw t (hs := hs) with h | h | h
  · rw [h]; exact .inl rfl
  · rw [h]; exact .inr (.inl rfl)
  · rw [h]; exact .inr (.inr rfl)

theorem verifyTry_intime (s : Session) (pw : List Byte) (h : ∀ i, e.peek + e.clk 1 i < 2 ^ 64) (h' : ∀ i, k + c 1 i < 2 ^ 64) :
    verifyTry hs (e.paced q c k) s pw 0 = verifyTry hs e s pw 0 := by
  have h0 : ∀ (p : Nat) (r : Nat → Nat), (∀ i, p + r i < 2 ^ 64) →
      ((0 + (2 ^ 64 - p % 2 ^ 64)) % 2 ^ 64 = 0 ∨ ∀ i, r i < (0 + (2 ^ 64 - p % 2 ^ 64)) % 2 ^ 64) := by
    intro p r h
    by_cases hp : p = 0
    · exact .inl (by simp [hp])
    · right
      intro i
      have h1 := h i
      have h2 : p % 2 ^ 64 = p := Nat.mod_eq_of_lt (by omega)
      have h3 : (0 + (2 ^ 64 - p)) % 2 ^ 64 = 2 ^ 64 - p := by rw [Nat.zero_add]; exact Nat.mod_eq_of_lt (by omega)
      rw [h2, h3]
      omega
  unfold verifyTry
  have h1 : ∀ (ch : ChainHash) (H : HashFn), ChainHashModes.performStr ch H pw 0 ((e.paced q c k).clk 0) = ChainHashModes.performStr ch H pw 0 (e.clk 0) :=
    fun ch H => ChainHashModes.performStr_intime ch H pw (.inl rfl) _
  have h2 : ∀ (ch : ChainHash) (H : HashFn) (x : Bytes),
      ChainHashModes.performBytes ch H x ((0 + (2 ^ 64 - (e.paced q c k).peek % 2 ^ 64)) % 2 ^ 64) ((e.paced q c k).clk 1) =
        ChainHashModes.performBytes ch H x 0 (fun _ => 0) :=
    fun ch H x => ChainHashModes.performBytes_intime ch H x (h0 k (c 1) h') _
  have h3 : ∀ (ch : ChainHash) (H : HashFn) (x : Bytes),
      ChainHashModes.performBytes ch H x ((0 + (2 ^ 64 - e.peek % 2 ^ 64)) % 2 ^ 64) (e.clk 1) =
        ChainHashModes.performBytes ch H x 0 (fun _ => 0) :=
    fun ch H x => ChainHashModes.performBytes_intime ch H x (h0 e.peek (e.clk 1) h) _
  simp only [h1, h2, h3, ne_eq, not_true_eq_false, false_and, if_false]

theorem makeHeader_same (pw : List Byte) (ds : SettingsIters) (t : Nat) (c1 c2 : ChainHash) :
    makeHeader hs pw ds t (e.paced q c k) c1 c2 = makeHeader hs pw ds t e c1 c2 ∨
      makeHeader hs pw ds t (e.paced q c k) c1 c2 = .ok (.createMove .timeout) ∨
      makeHeader hs pw ds t e c1 c2 = .ok (.createMove .timeout) := by
  unfold makeHeader
  refine same_bind _ fun a1 => same_bind _ fun p => same_bind _ fun a3 => same_bind _ fun p => same_bind _ fun m => ?_
  refine SameInTime.sigma rfl rfl (ChainHashModes.performStr_same p.ch1 (hs.get m) pw t t _ _) fun o => ?_
  cases o with
  | fail x => exact .inl rfl
  | timeout => exact .inl rfl
  | success h1 =>
    simp only
    by_cases h2 : t ≠ 0 ∧ t ≤ (e.paced q c k).peek
    · rw [if_pos h2]; exact .inr (.inl rfl)
    · rw [if_neg h2]
      by_cases h3 : t ≠ 0 ∧ t ≤ e.peek
      · rw [if_pos h3]; exact .inr (.inr rfl)
      · rw [if_neg h3]
        exact SameInTime.sigma rfl rfl (ChainHashModes.performBytes_same p.ch2 (hs.get m) h1 _ _ _ _) fun o => .inl rfl

theorem makeHeader_untimed (pw : List Byte) (ds : SettingsIters) (c1 c2 : ChainHash) :
    makeHeader hs pw ds 0 (e.paced q c k) c1 c2 = makeHeader hs pw ds 0 e c1 c2 := by
  unfold makeHeader
  have h1 : ∀ (ch : ChainHash) (H : HashFn), ChainHashModes.performStr ch H pw 0 ((e.paced q c k).clk 0) = ChainHashModes.performStr ch H pw 0 (e.clk 0) :=
    fun ch H => ChainHashModes.performStr_intime ch H pw (.inl rfl) _
  have h2 : ∀ (ch : ChainHash) (H : HashFn) (x : Bytes), ChainHashModes.performBytes ch H x 0 ((e.paced q c k).clk 1) = ChainHashModes.performBytes ch H x 0 (e.clk 1) :=
    fun ch H x => ChainHashModes.performBytes_intime ch H x (.inl rfl) _
  simp only [h1, h2, ne_eq, not_true_eq_false, false_and, if_false]
  rfl

theorem createDataHeaderIters_same (mode : Byte) (pw : List Byte) (ds : SettingsIters) (t : Nat) :
    createDataHeaderIters hs mode pw ds t (e.paced q c k) = createDataHeaderIters hs mode pw ds t e ∨
      createDataHeaderIters hs mode pw ds t (e.paced q c k) = .ok (.createMove .timeout) ∨
      createDataHeaderIters hs mode pw ds t e = .ok (.createMove .timeout) := by
  unfold createDataHeaderIters
  have hm : makeChains ds (e.paced q c k) = makeChains ds e := rfl
  rw [hm]
  have key : ∀ a b : Res Helper, (a = b ∨ a = .ok (.createMove .timeout) ∨ b = .ok (.createMove .timeout)) →
      (Res.noexcept a = Res.noexcept b ∨ Res.noexcept a = .ok (.createMove .timeout) ∨ Res.noexcept b = .ok (.createMove .timeout)) := by
    rintro a b (rfl | rfl | rfl)
    · exact .inl rfl
    · exact .inr (.inl rfl)
    · exact .inr (.inr rfl)
  refine key _ _ ?_
  by_cases hc : (!ds.isComplete) = true
  · rw [if_pos hc, if_pos hc]
    exact .inl rfl
  · rw [if_neg hc, if_neg hc]
    refine same_bind _ fun fm => ?_
    by_cases hf : fm ≠ mode.toNat
    · rw [if_pos hf, if_pos hf]
      exact .inl rfl
    · rw [if_neg hf, if_neg hf]
      refine same_bind _ fun o => ?_
      cases o with
      | none => exact .inl rfl
      | some cs => exact makeHeader_same e q c k pw ds t cs.1 cs.2

theorem createDataHeaderIters_untimed (mode : Byte) (pw : List Byte) (ds : SettingsIters) :
    createDataHeaderIters hs mode pw ds 0 (e.paced q c k) = createDataHeaderIters hs mode pw ds 0 e := by
  unfold createDataHeaderIters
  simp only [makeHeader_untimed]
  rfl

end Api
end Verif
