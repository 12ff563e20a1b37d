import Verif.Spec.Cost
import Verif.Lemmas.Cost
import Verif.Props.Secrecy
import Verif.Props.DataHeader

/- What it costs to try a password: C96. -/
namespace Verif.Props
open Spec Sha2

/-- hash functions that are all of known size: one of them replaced -/
theorem replaced (hs : Hashes) (m : HMode) (H : HashFn) (hsz : H.size = m.size) : ∃ hs' : Hashes, (hs'.get m).h = H.h :=
  let ⟨hs', h, _⟩ := exchange hs m H hsz
  ⟨hs', h⟩

theorem opens_iff {hs : Hashes} {hd : Header} {m : HMode} (hm : m.toByte = hd.hashMode) {pw : List Byte} :
    Opens hs hd pw ↔ hd.ch2.digest (hs.get m).h (hd.ch1.digest (hs.get m).h pw) = hd.validator := by
  constructor
  · rintro ⟨m', h1, h2⟩
    have : m' = m := by
      have := h1.trans hm.symm
      revert this; cases m' <;> cases m <;> decide
    subst this
    exact h2
  · exact fun h => ⟨m, hm, h⟩

/-- C96: whoever finds out for every hash function whether a password opens a file asks for the hashes of all inputs of the check,
whether the password is right or wrong. -/
theorem C96_all_rounds (hd : Header) (hv : hd.Valid) (m : HMode) (hm : m.toByte = hd.hashMode) (pw : List Byte) (a : Asker Bool)
    (ha : Decides a hd m pw) (hs : Hashes) (hl : (a.asked (hs.get m).h).length < 2 ^ 63) :
    ∀ z ∈ checkInputs (hs.get m).h hd pw, z ∈ a.asked (hs.get m).h := by
  intro z hz
  refine Classical.byContradiction fun hno => ?_
  have hsz := size_eq_digest hm
  have i1 := hv.ch1.2.1
  have i2 := hv.ch2.2.1
  obtain ⟨H', k1, k2, k3⟩ := unknown_input (T := (· = !a.run (hs.get m).h)) (checker hd pw) _ (hs.get m) (a.asked (hs.get m).h)
    (by rw [Hashes.get_size, ← hsz]; exact checker_free hv _ pw) (by omega)
    ⟨z, by rw [(checker_run _ hd pw).2]; exact hz, hno⟩
  obtain ⟨hs', q⟩ := replaced hs m H' (by rw [k1, Hashes.get_size])
  have h1 : a.run (hs'.get m).h = a.run (hs.get m).h := (Asker.congr a (fun z hz => by rw [q]; exact k2 z hz)).1
  have h2 : (checker hd pw).run H'.h = true ↔ a.run (hs'.get m).h = true := by
    rw [ha hs', opens_iff hm, q]; exact (checker_run _ hd pw).1
  rw [h1] at h2
  rw [k3] at h2
  cases a.run (hs.get m).h <;> simp at h2

/-- C96: so it costs as many hashes as the two numbers of iterations in the header say, unless the inputs repeat themselves. -/
theorem C96_cost (hd : Header) (hv : hd.Valid) (m : HMode) (hm : m.toByte = hd.hashMode) (pw : List Byte) (a : Asker Bool)
    (ha : Decides a hd m pw) (hs : Hashes) (hnd : (checkInputs (hs.get m).h hd pw).Nodup) :
    hd.ch1.iters + hd.ch2.iters ≤ (a.asked (hs.get m).h).length := by
  have i1 := hv.ch1.2.1
  have i2 := hv.ch2.2.1
  by_cases hl : (a.asked (hs.get m).h).length < 2 ^ 63
  · have := nodup_length _ _ hnd (C96_all_rounds hd hv m hm pw a ha hs hl)
    rwa [show (checkInputs (hs.get m).h hd pw).length = hd.ch1.iters + hd.ch2.iters by simp [checkInputs, chainInputs]] at this
  · omega

/-- C96 through the API: whoever finds out for all hash functions whether a new session that selects the file accepts the password
asks for all inputs of the check. -/
theorem C96_session {rest : Api.Helper → Res Api.Helper} (mode : Byte) (s0 : Session) (h0 : Api.new mode = .ok s0) (fs : FS)
    (p : Path) (hp : EncPath p) (hd : Header) (hv : hd.Valid) (m : HMode) (hm : m.toByte = hd.hashMode) (pw enc : List Byte)
    (hsz : hd.fileSize = hd.length + enc.length) (hf : fs p = .file (hd.bytes ++ enc)) (e : Nat → Env) (he : ∀ i, Healthy (e i) p)
    (a : Asker Bool)
    (ha : ∀ hs : Hashes, a.run (hs.get m).h = true ↔ ∃ r w, Api.run hs rest ⟨s0, fs⟩ [.call (.selectFile p) (e 0),
      .call (.verifyPassword pw 0) (e 1)] = .ok ([some r, some (.flag (.success true))], w))
    (hs : Hashes) (hl : (a.asked (hs.get m).h).length < 2 ^ 63) :
    ∀ z ∈ checkInputs (hs.get m).h hd pw, z ∈ a.asked (hs.get m).h := by
  obtain ⟨rfl, rfl⟩ := new_mode h0
  refine C96_all_rounds hd hv m hm pw a (fun hs => ?_) hs hl
  rw [ha hs, opens_iff hm]
  have c1 := Api.select_run (rest := rest) (hs := hs) (w := ⟨⟨.INIT, 1, none, Bytes.empty 0, none, none, none⟩, fs⟩) hp hv hsz rfl hf
    (he 0).read ((he 0).rand 0)
  rcases verify_outcome (hs := hs) (rest := rest) (w := ⟨⟨.FILE_SELECTED, 1, none, Bytes.empty 0, none, some (HeaderParse.mkHeader hd),
      some ⟨p, hd.length, hd.fileSize, false⟩⟩, fs⟩) hv rfl rfl m hm (e 1) pw 0 with ⟨late, -⟩ | ⟨-, k, -, key⟩
  · exact absurd late (Api.not_vlate_zero (he 1).clock)
  · split at key
    · rename_i hok
      exact ⟨fun _ => hok, fun _ => ⟨_, _, Api.call_step c1 (Api.call_step key rfl)⟩⟩
    · rename_i hno
      refine ⟨?_, fun h => absurd h hno⟩
      rintro ⟨r, w, h⟩
      rw [Api.call_step c1 (Api.call_step key rfl)] at h
      simp at h

/-- C96: the check of the program does it at exactly that cost. -/
theorem C96_optimal (hd : Header) (m : HMode) (hm : m.toByte = hd.hashMode) (pw : List Byte) :
    ∃ a : Asker Bool, Decides a hd m pw ∧ (∀ hs : Hashes, a.asked (hs.get m).h = checkInputs (hs.get m).h hd pw) ∧
      ∀ hs : Hashes, (a.asked (hs.get m).h).length = hd.ch1.iters + hd.ch2.iters := by
  refine ⟨checker hd pw, fun hs => ?_, fun hs => (checker_run _ hd pw).2, fun hs => ?_⟩
  · rw [opens_iff hm]; exact (checker_run _ hd pw).1
  · rw [(checker_run _ hd pw).2]; simp [checkInputs, chainInputs]

/-- C96 for a search: whoever finds out whether one of some passwords opens a file, and none does, asks for all inputs of the checks
of all of them; and that many are needed at least if the inputs are different. -/
theorem C96_search (hd : Header) (hv : hd.Valid) (m : HMode) (hm : m.toByte = hd.hashMode) (pws : List (List Byte)) (a : Asker Bool)
    (ha : ∀ hs : Hashes, a.run (hs.get m).h = true ↔ ∃ pw ∈ pws, Opens hs hd pw) (hs : Hashes)
    (hno : ∀ pw ∈ pws, ¬ Opens hs hd pw) (hl : (a.asked (hs.get m).h).length < 2 ^ 63) :
    (∀ pw ∈ pws, ∀ z ∈ checkInputs (hs.get m).h hd pw, z ∈ a.asked (hs.get m).h) ∧
    ((pws.flatMap fun pw => checkInputs (hs.get m).h hd pw).Nodup →
      pws.length * (hd.ch1.iters + hd.ch2.iters) ≤ (a.asked (hs.get m).h).length) := by
  have hsz := size_eq_digest hm
  have i1 := hv.ch1.2.1
  have i2 := hv.ch2.2.1
  have main : ∀ pw ∈ pws, ∀ z ∈ checkInputs (hs.get m).h hd pw, z ∈ a.asked (hs.get m).h := by
    intro pw hpw z hz
    refine Classical.byContradiction fun hz' => ?_
    obtain ⟨H', k1, k2, k3⟩ := unknown_input (T := (· = true)) (checker hd pw) _ (hs.get m) (a.asked (hs.get m).h)
      (by rw [Hashes.get_size, ← hsz]; exact checker_free hv _ pw) (by omega)
      ⟨z, by rw [(checker_run _ hd pw).2]; exact hz, hz'⟩
    obtain ⟨hs', q⟩ := replaced hs m H' (by rw [k1, Hashes.get_size])
    have h1 : a.run (hs'.get m).h = a.run (hs.get m).h := (Asker.congr a (fun z hz => by rw [q]; exact k2 z hz)).1
    have h2 : a.run (hs'.get m).h = true := (ha hs').mpr ⟨pw, hpw, (opens_iff hm).mpr (by rw [q]; exact (checker_run _ hd pw).1.mp k3)⟩
    rw [h1] at h2
    obtain ⟨pw', g1, g2⟩ := (ha hs).mp h2
    exact hno pw' g1 g2
  refine ⟨main, fun hnd => ?_⟩
  have := nodup_length _ (a.asked (hs.get m).h) hnd (by
    intro z hz
    obtain ⟨pw, hpw, hz⟩ := List.mem_flatMap.mp hz
    exact main pw hpw z hz)
  refine Nat.le_trans (Nat.le_of_eq ?_) this
  rw [List.length_flatMap]
  clear this hnd main hno ha
  induction pws with
  | nil => simp
  | cons pw pws ih =>
    simp only [List.map_cons, List.sum_cons, List.length_cons, Nat.succ_mul, ih]
    simp [checkInputs, chainInputs]
    omega

/-- the beginning of the content from the beginning of its encryption -/
theorem first_bytes {h : List Byte → List Byte} {n k : Nat} {a b y c : List Byte} (hk : k ≤ n) (hy : IsEncryption h n a b y c) :
    subB (c.take k) (blockSalt h n a b y 1) = y.take k := by
  apply List.ext_getElem?
  intro i
  rw [getElem?_subB, List.getElem?_take, List.getElem?_take]
  by_cases hi : i < k
  · rw [if_pos hi, if_pos hi]
    by_cases hl : i < y.length
    · obtain ⟨s, h1, h2⟩ := hy.2 i y[i] (List.getElem?_eq_getElem hl)
      rw [Nat.div_eq_of_lt (by omega), Nat.mod_eq_of_lt (by omega)] at h1
      rw [h1, h2, List.getElem?_eq_getElem hl]
      simp only [UInt8.add_sub_cancel]
    · rw [List.getElem?_eq_none (show y.length ≤ i by omega), List.getElem?_eq_none (show c.length ≤ i by rw [hy.1]; omega)]
  · rw [if_neg hi, if_neg hi]

theorem first_byte {h : List Byte → List Byte} {n : Nat} {a b y c : List Byte} {x : Byte}
    (hy : IsEncryption h n a b y (x :: c)) : y.head? = some (x - (blockSalt h n a b y 1).headD 0) := by
  have hl := hy.1
  match y, hl with
  | p :: y, _ =>
    obtain ⟨s, h1, h2⟩ := hy.2 0 p rfl
    rw [Nat.zero_div, Nat.zero_mod, Nat.zero_add] at h1
    generalize blockSalt h n a b (p :: y) 1 = out at h1
    match out, h1 with
    | s' :: _, h1 =>
      cases h1
      cases h2
      simp only [List.head?_cons, List.headD_cons, UInt8.add_sub_cancel]

/-- C96 for the content: whoever tells the first byte of the content that a password opens, for every hash function, asks for all
inputs of the first chain hash and three more. -/
theorem C96_content (hd : Header) (hv : hd.Valid) (m : HMode) (hm : m.toByte = hd.hashMode) (pw : List Byte) (c : Byte)
    (enc : List Byte) (a : Asker Byte)
    (ha : ∀ (hs : Hashes) (y : List Byte), IsEncryption (hs.get m).h m.size (hd.ch1.digest (hs.get m).h pw) hd.salt y (c :: enc) →
      y.head? = some (a.run (hs.get m).h))
    (hs : Hashes) (hl : (a.asked (hs.get m).h).length < 2 ^ 63) :
    (∀ z ∈ firstInputs (hs.get m).h hd pw, z ∈ a.asked (hs.get m).h) ∧
    ((firstInputs (hs.get m).h hd pw).Nodup → hd.ch1.iters + 3 ≤ (a.asked (hs.get m).h).length) := by
  have hsz := size_eq_digest hm
  have i1 := hv.ch1.2.1
  have hms : 0 < m.size := by cases m <;> decide
  have hlen : (firstInputs (hs.get m).h hd pw).length = hd.ch1.iters + 3 := by simp [firstInputs, chainInputs]
  have first : ∀ hs : Hashes, (firstAsker hd pw fun out => c - out.headD 0).run (hs.get m).h = a.run (hs.get m).h := by
    intro hs
    have hy := cryptOut_dec (hs.get m) (hd.ch1.digest (hs.get m).h pw) hd.salt (c :: enc)
    generalize cryptOut .dec (hs.get m) (hd.ch1.digest (hs.get m).h pw) hd.salt (c :: enc) = y at hy
    rw [Hashes.get_size] at hy
    have h1 := ha hs y hy
    rw [first_byte hy, ← hsz] at h1
    rw [(firstAsker_run (hs.get m).h hd pw _ y).1]
    exact Option.some.inj h1
  have main : ∀ z ∈ firstInputs (hs.get m).h hd pw, z ∈ a.asked (hs.get m).h := by
    intro z hz
    refine Classical.byContradiction fun hz' => ?_
    obtain ⟨H', k1, k2, k3⟩ := unknown_input (T := (· ≠ a.run (hs.get m).h)) (firstAsker hd pw fun out => c - out.headD 0) _ (hs.get m)
      (a.asked (hs.get m).h) (by
        rw [Hashes.get_size, ← hsz]
        refine firstAsker_free hv _ ⟨List.replicate (digestSize hd.hashMode) (c - a.run (hs.get m).h + 1), by simp, ?_⟩ pw
        obtain ⟨k, hk⟩ : ∃ k, digestSize hd.hashMode = k + 1 := ⟨digestSize hd.hashMode - 1, by omega⟩
        rw [hk, List.replicate_succ, List.headD_cons]
        generalize a.run (hs.get m).h = b
        intro hb
        have : (1 : UInt8) = 0 := by grind
        exact absurd this (by decide)) (by omega)
      ⟨z, by rw [(firstAsker_run _ hd pw _ []).2]; exact hz, hz'⟩
    obtain ⟨hs', q⟩ := replaced hs m H' (by rw [k1, Hashes.get_size])
    have h1 : a.run (hs'.get m).h = a.run (hs.get m).h := (Asker.congr a (fun z hz => by rw [q]; exact k2 z hz)).1
    refine k3 ?_
    rw [← q, first hs', h1]
  exact ⟨main, fun hnd => by have := nodup_length _ _ hnd main; omega⟩

/-- C96 is violated for those who know how the content begins: they need the first chain hash and three more hashes to tell
whether a password gives content that begins so, whatever the number of iterations of the second chain hash. With the password of
the file the answer is yes, so a no rules a password out. -/
theorem C96_violated_known (hd : Header) (m : HMode) (hm : m.toByte = hd.hashMode) (pw : List Byte)
    (enc x0 : List Byte) (h1 : x0.length ≤ m.size) :
    ∃ a : Asker Bool, (∀ hs : Hashes, (a.asked (hs.get m).h).length = hd.ch1.iters + 3) ∧
      ∀ (hs : Hashes) (y : List Byte), IsEncryption (hs.get m).h m.size (hd.ch1.digest (hs.get m).h pw) hd.salt y enc →
        (a.run (hs.get m).h = true ↔ y.take x0.length = x0) := by
  have hsz := size_eq_digest hm
  refine ⟨firstAsker hd pw fun out => subB (enc.take x0.length) out == x0, fun hs => ?_, fun hs y hy => ?_⟩
  · rw [(firstAsker_run _ hd pw _ []).2]; simp [firstInputs, chainInputs]
  · rw [(firstAsker_run _ hd pw _ y).1, beq_iff_eq, hsz]
    have : subB (enc.take x0.length) (blockSalt (hs.get m).h m.size (hd.ch1.digest (hs.get m).h pw) hd.salt y 1) = y.take x0.length :=
      first_bytes h1 hy
    rw [this]

/-- C96 is violated, through the API: with the same questions it is told whether the content that the program shows for a password
which opens the file begins as expected. -/
theorem C96_violated_file {rest : Api.Helper → Res Api.Helper} (mode : Byte) (s0 : Session) (h0 : Api.new mode = .ok s0) (fs : FS)
    (p : Path) (hp : EncPath p) (hd : Header) (hv : hd.Valid) (m : HMode) (hm : m.toByte = hd.hashMode) (pw enc : List Byte)
    (hsz : hd.fileSize = hd.length + enc.length) (hl : enc.length < 2 ^ 31) (hf : fs p = .file (hd.bytes ++ enc)) (e : Nat → Env)
    (he : ∀ i, Healthy (e i) p) (x0 : List Byte) (h1 : x0.length ≤ m.size) :
    ∃ a : Asker Bool, (∀ hs : Hashes, (a.asked (hs.get m).h).length = hd.ch1.iters + 3) ∧
      ∀ hs : Hashes, Opens hs hd pw → ∃ (r : Bytes) (w : World), Api.run hs rest ⟨s0, fs⟩ [.call (.selectFile p) (e 0),
          .call (.verifyPassword pw 0) (e 1), .call .getDecryptedData (e 2)] =
          .ok ([some (.flag (.success true)), some (.flag (.success true)), some (.data (.success ⟨some mode, some r⟩))], w) ∧
        (a.run (hs.get m).h = true ↔ r.data.take x0.length = x0) := by
  obtain ⟨rfl, rfl⟩ := new_mode h0
  obtain ⟨a, g1, g2⟩ := C96_violated_known hd m hm pw enc x0 h1
  refine ⟨a, g1, fun hs hopen => ?_⟩
  obtain ⟨w, r, -, -, d1, d2, -⟩ := Api.open_holds (rest := rest) (hs := hs)
    (w := ⟨⟨.INIT, 1, none, Bytes.empty 0, none, none, none⟩, fs⟩) (h := hd) hp hv hsz rfl rfl hf (m := m) hm
    ((opens_iff hm).mp hopen) hl (he 0).read ((he 0).rand 0) (he 1).clock (he 2).read
  refine ⟨r, w, d1, ?_⟩
  rw [d2]
  have := cryptOut_dec (hs.get m) (hd.ch1.digest (hs.get m).h pw) hd.salt enc
  rw [Hashes.get_size] at this
  exact g2 hs _ this

/-! cases that meet the hypotheses, with SHA-256 -/

/-- one iteration of the first chain hash, seven of the second: the inputs of the check of a password are eight different ones -/
example : (checkInputs sha256 smallHeader samplePw).length = 8 ∧ (checkInputs sha256 smallHeader samplePw).Nodup := by decide +kernel
/-- there is somebody who finds it out, so the hypothesis `Decides` can be met -/
example : ∃ a, Decides a smallHeader .sha256 samplePw := let ⟨a, h, _⟩ := C96_optimal smallHeader .sha256 rfl samplePw; ⟨a, h⟩
/-- three passwords, none of which is right: 24 different inputs -/
example : (let pws := [samplePw, ascii "secret", ascii "12345"]
    (pws.flatMap fun pw => checkInputs sha256 smallHeader pw).Nodup ∧
    ∀ pw ∈ pws, smallHeader.ch2.digest sha256 (smallHeader.ch1.digest sha256 pw) ≠ smallHeader.validator) := by decide +kernel
/-- and somebody who finds out about lists of passwords: one check after the other -/
def checkAll (hd : Header) : List (List Byte) → Asker Bool
  | [] => .answer false
  | pw :: pws => rounds (fun y => if y == hd.validator then .answer true else checkAll hd pws) (checkTails hd) pw
example (hd : Header) (m : HMode) (hm : m.toByte = hd.hashMode) (pws : List (List Byte)) (hs : Hashes) :
    (checkAll hd pws).run (hs.get m).h = true ↔ ∃ pw ∈ pws, Opens hs hd pw := by
  induction pws with
  | nil => simp [checkAll, Asker.run]
  | cons pw pws ih =>
    rw [checkAll, (rounds_run _ _ _ _).1, (check_walk _ hd pw).2]
    simp only [List.mem_cons, exists_eq_or_imp, opens_iff hm]
    by_cases h : hd.ch2.digest (hs.get m).h (hd.ch1.digest (hs.get m).h pw) = hd.validator
    · rw [if_pos (beq_iff_eq.mpr h)]; simp [Asker.run, h]
    · rw [if_neg (by simpa using h), ih]; simp [h, opens_iff hm]
/-- the first byte: four different inputs, instead of the eight of the check -/
example : (firstInputs sha256 smallHeader samplePw).length = 4 ∧ (firstInputs sha256 smallHeader samplePw).Nodup := by decide +kernel
/-- the question for the first byte is answered by `firstAsker` -/
example (c : Byte) (enc : List Byte) (hs : Hashes) (y : List Byte)
    (h : IsEncryption (hs.get .sha256).h 32 (smallHeader.ch1.digest (hs.get .sha256).h samplePw) smallHeader.salt y (c :: enc)) :
    y.head? = some ((firstAsker smallHeader samplePw fun out => c - out.headD 0).run (hs.get .sha256).h) := by
  rw [first_byte h, (firstAsker_run _ smallHeader samplePw _ y).1]
  rfl

end Verif.Props
