import Verif.Spec.AppHeader
import Verif.Lemmas.Session
import Verif.Lemmas.Crypt
import Verif.Lemmas.Sha2
import Verif.Props.Bytes

/- The end of the set-up dialogue: C105. -/
namespace Verif.Props
open Spec App

theorem shown_ok {α β : Type} (x : Shown α) (f : α → Shown β) (a : α) (h : x.res = .ok a) :
    x >>= f = ⟨x.text ++ (f a).text, (f a).res⟩ := by
  show Shown.bind x f = _
  simp only [Shown.bind, h]

theorem quiet_ok {α β : Type} {r : Res α} (f : α → Shown β) {a : α} (h : r = .ok a) : Shown.quiet r >>= f = f a := by
  rw [shown_ok _ f a (by exact h)]
  simp [Shown.quiet]

theorem line_bind {β : Type} (s : List Char) (f : Unit → Shown β) : Shown.line s >>= f = ⟨s :: (f ()).text, (f ()).res⟩ := by
  rw [shown_ok _ f () rfl]; rfl

theorem chosen_ok {n : Modes.Num} {m : CHMode} (hn : n = m.toByte.toUInt32) (i : UInt64) (d : ChainHashData)
    (hv : (ChainHash.make m i (some d)).val = true) : chosen n i (some d) = .ok (ChainHash.make m i (some d)) := by
  have : n.toUInt8 = m.toByte := by subst hn; cases m <;> rfl
  simp only [chosen, this, CHMode.ofByte_toByte, hv, if_true]

theorem summaryChain_ok {n : Modes.Num} {m : CHMode} (hn : n = m.toByte.toUInt32) (i : UInt64) {c : ChainHash} (hc : c.Good)
    (title : List Char) : (summaryChain title n i c).res = .ok () := by
  obtain ⟨m', k, block, -, -, -, rfl⟩ := hc
  have hi : ∃ s, Modes.chainInfo n = .ok s := by subst hn; cases m <;> exact ⟨_, rfl⟩
  obtain ⟨s, hi⟩ := hi
  have hd : (mkCH m' k block).getData = .ok ⟨m', ⟨block, 255⟩, m'.nameLens.length⟩ := rfl
  have hb : (⟨m', ⟨block, 255⟩, m'.nameLens.length⟩ : ChainHashData).getDataBlock = .ok ⟨block, 255⟩ := by
    simp [ChainHashData.getDataBlock, ChainHashData.isComplete]
  unfold summaryChain
  rw [line_bind, quiet_ok _ hi, line_bind, line_bind, quiet_ok _ hd, line_bind, quiet_ok _ hb]
  rfl

theorem summary_ok {p : Prefs} {m1 m2 : CHMode} {m : HMode} {c1 c2 : ChainHash} (hf : p.fileMode = 1)
    (hh : p.hashMode = m.toByte.toUInt32) (h1 : p.ch1Mode = m1.toByte.toUInt32) (h2 : p.ch2Mode = m2.toByte.toUInt32)
    (g1 : c1.Good) (g2 : c2.Good) : (summary p c1 c2).res = .ok () := by
  have hfi : ∃ s, Modes.fileInfo p.fileMode = .ok s := by rw [hf]; exact ⟨_, rfl⟩
  have hhi : ∃ s, Modes.hashInfo p.hashMode false = .ok s := by rw [hh]; cases m <;> exact ⟨_, rfl⟩
  obtain ⟨s, hs⟩ := hfi
  obtain ⟨t, ht⟩ := hhi
  unfold summary
  rw [line_bind, quiet_ok _ hs, line_bind, quiet_ok _ ht, line_bind, shown_ok _ _ () (summaryChain_ok h1 p.ch1Iters g1
    "[CHAINHASH1] (to derive the hash from the password):".toList)]
  exact summaryChain_ok h2 p.ch2Iters g2 "[CHAINHASH2] (to validate the hash from the password):".toList

/-- there is never a header: nothing sets the size of the file -/
theorem assemble_none (hs : Hashes) (p : Prefs) (c1 c2 : ChainHash) (a b : Bytes) (r : Rand) (clk : Nat → Nat) :
    (assemble hs p c1 c2 a b r clk).text = [] ∧ ∀ h, (assemble hs p c1 c2 a b r clk).res ≠ .ok h := by
  have key : ∀ h, (do
    let d ← DataHeader.new p.hashMode.toUInt8 r
    let d ← d.setFileDataMode p.fileMode.toUInt8
    let d ← d.setChainHash1 c1
    let d ← d.setChainHash2 c2
    let d ← d.setValidPasswordHashBytes b
    let d ← d.calcHeaderBytes! hs a clk
    d.getHeaderBytes : Res Bytes) ≠ .ok h := by
    intro h hh
    simp only [Res.bind_eq_ok] at hh
    obtain ⟨d0, e0, d1, e1, d2, e2, d3, e3, d4, e4, d5, e5, -⟩ := hh
    have f0 : d0.fileSize = none := by
      simp only [DataHeader.new, Res.bind_eq_ok] at e0
      obtain ⟨_, -, _, -, _, -, _, -, e⟩ := e0
      cases e; rfl
    have f1 : d1.fileSize = none := by
      simp only [DataHeader.setFileDataMode, Res.bind_eq_ok] at e1
      obtain ⟨_, -, e⟩ := e1
      cases e; exact f0
    have f2 : d2.fileSize = none := by
      unfold DataHeader.setChainHash1 at e2
      split at e2
      · cases e2
      · simp only [Res.bind_eq_ok] at e2
        obtain ⟨_, -, e⟩ := e2
        cases e; exact f1
    have f3 : d3.fileSize = none := by
      unfold DataHeader.setChainHash2 at e3
      split at e3
      · cases e3
      · simp only [Res.bind_eq_ok] at e3
        obtain ⟨_, -, e⟩ := e3
        cases e; exact f2
    have f4 : d4.fileSize = none := by
      simp only [DataHeader.setValidPasswordHashBytes, Res.bind_eq_ok] at e4
      obtain ⟨_, -, e⟩ := e4
      cases e; exact f3
    have : d4.calcChecks = .exn .logicError := by
      simp only [DataHeader.calcChecks, f4]
      split <;> rfl
    simp only [DataHeader.calcHeaderBytes!, DataHeader.calcHeaderBytes, this, Res.bind_exn] at e5
    simp at e5
  unfold assemble
  show (Shown.bind _ _).text = _ ∧ ∀ h, (Shown.bind _ _).res ≠ _
  generalize (do
    let d ← DataHeader.new p.hashMode.toUInt8 r
    let d ← d.setFileDataMode p.fileMode.toUInt8
    let d ← d.setChainHash1 c1
    let d ← d.setChainHash2 c2
    let d ← d.setValidPasswordHashBytes b
    let d ← d.calcHeaderBytes! hs a clk
    d.getHeaderBytes : Res Bytes) = x at key ⊢
  cases x with
  | ok h => exact absurd rfl (key h)
  | exn e => exact ⟨rfl, fun h => by simp [Shown.bind, Shown.quiet]⟩
  | fatal e => exact ⟨rfl, fun h => by simp [Shown.bind, Shown.quiet]⟩

/-- everything printed, and that there is no header -/
theorem setUp_text (hs : Hashes) (p : Prefs) (m : HMode) (m1 m2 : CHMode) (d1 d2 : ChainHashData)
    (hg : GoodAnswers p m m1 m2 d1 d2) : ∃ pub : List (List Char), ∀ (pw : List Byte) (r : Rand) (clk : Nat → Nat → Nat),
      ∃ a b : Bytes, a.data = (ChainHash.make m1 p.ch1Iters (some d1)).desc.digest (hs.get m).h pw ∧
        b.data = (ChainHash.make m2 p.ch2Iters (some d2)).desc.digest (hs.get m).h a.data ∧
        (setUp hs { p with pw := pw } (some d1) (some d2) r clk).text =
          pub ++ ["PW HASH: ".toList ++ a.toHex, "PW VALIDATOR: ".toList ++ b.toHex] ∧
        ∀ h, (setUp hs { p with pw := pw } (some d1) (some d2) r clk).res ≠ .ok h := by
  have g1 : (ChainHash.make m1 p.ch1Iters (some d1)).Good :=
    ChainHash.Obtainable.good (.inr ⟨m1, p.ch1Iters, some d1, by rintro _ ⟨⟩; exact hg.data1, rfl⟩) hg.val1
  have g2 : (ChainHash.make m2 p.ch2Iters (some d2)).Good :=
    ChainHash.Obtainable.good (.inr ⟨m2, p.ch2Iters, some d2, by rintro _ ⟨⟩; exact hg.data2, rfl⟩) hg.val2
  generalize e1 : ChainHash.make m1 p.ch1Iters (some d1) = c1 at g1
  generalize e2 : ChainHash.make m2 p.ch2Iters (some d2) = c2 at g2
  have hH : Modes.getHash hs p.hashMode = .ok (hs.get m) := by rw [hg.hash]; cases m <;> rfl
  refine ⟨(summary p c1 c2).text ++ [advice, "Password hash generated. Generating password validator...".toList,
    "Password validator generated.".toList], fun pw r clk => ?_⟩
  obtain ⟨a, ha, ha', hw⟩ : ∃ a, ChainHashModes.performStr c1 (hs.get m) pw 0 (clk 0) = .ok (.success a) ∧
      a.data = c1.desc.digest (hs.get m).h pw ∧ a.WF := by
    rcases g1.str (hs.get m) pw 0 (clk 0) with ⟨h, -⟩ | ⟨-, a, h, h', h'', -⟩
    · exact absurd h (not_hit_zero _ _ _)
    · exact ⟨a, h, h', h''⟩
  obtain ⟨b, hb, hb'⟩ := g2.performBytes (hs.get m) a hw (clk 1)
  refine ⟨a, b, ha', hb', ?_⟩
  have hd : derive hs { p with pw := pw } c1 c2 clk = ⟨[advice, "Password hash generated. Generating password validator...".toList,
      "Password validator generated.".toList, "PW HASH: ".toList ++ a.toHex, "PW VALIDATOR: ".toList ++ b.toHex], .ok (a, b)⟩ := by
    unfold derive
    rw [line_bind, quiet_ok _ hH, quiet_ok (a := a) _ (by show (_ >>= _) = _; rw [ha]; rfl), line_bind,
      quiet_ok (a := b) _ (by rw [hb]; rfl), line_bind, line_bind, line_bind]
    rfl
  have hsum : (summary { p with pw := pw } c1 c2).res = .ok () :=
    summary_ok (m := m) (p := { p with pw := pw }) hg.file hg.hash hg.mode1 hg.mode2 g1 g2
  unfold setUp
  rw [quiet_ok (a := c1) _ (e1 ▸ chosen_ok hg.mode1 _ _ hg.val1), quiet_ok (a := c2) _ (e2 ▸ chosen_ok hg.mode2 _ _ hg.val2),
    shown_ok _ _ () hsum, shown_ok _ _ (a, b) (by rw [hd])]
  obtain ⟨t1, t2⟩ := assemble_none hs { p with pw := pw } c1 c2 a b r (clk 2)
  refine ⟨?_, t2⟩
  rw [hd]
  show (summary { p with pw := pw } c1 c2).text ++ (_ ++ (assemble hs { p with pw := pw } c1 c2 a b r (clk 2)).text) = _
  rw [t1]
  show (summary p c1 c2).text ++ _ = _
  simp

theorem read_screen (pub : List (List Char)) (a : Bytes) (l : List Char) :
    keyOnScreen (pub ++ ["PW HASH: ".toList ++ a.toHex, l]) = some a.data := by
  have : ("PW HASH: ".toList ++ a.toHex).drop "PW HASH: ".length = a.toHex := by
    rw [show "PW HASH: ".length = "PW HASH: ".toList.length by decide, List.drop_left]
  simp only [keyOnScreen, List.reverse_append, List.reverse_cons, List.reverse_nil, List.nil_append, List.cons_append,
    List.getElem?_cons_succ, List.getElem?_cons_zero, Option.bind_some, this]
  exact C05_hex_decode a

/-- C105 is violated: for all good answers and every password the hash of the password can be read off the screen. -/
theorem C105_violated (hs : Hashes) (p : Prefs) (m : HMode) (m1 m2 : CHMode) (d1 d2 : ChainHashData)
    (hg : GoodAnswers p m m1 m2 d1 d2) (r : Rand) (clk : Nat → Nat → Nat) :
    keyOnScreen (setUp hs p (some d1) (some d2) r clk).text =
      some ((ChainHash.make m1 p.ch1Iters (some d1)).desc.digest (hs.get m).h p.pw) := by
  obtain ⟨pub, h⟩ := setUp_text hs p m m1 m2 d1 d2 hg
  obtain ⟨a, b, ha, -, ht, -⟩ := h p.pw r clk
  rw [show ({ p with pw := p.pw } : Prefs) = p from rfl] at ht
  rw [ht, read_screen, ha]

/-- C105 is violated: an onlooker who sees the screen can decrypt everything that is encrypted with this password and chain
hash, whatever the salt, without the password. -/
theorem C105_violated_open : ∃ onlooker : HashFn → List (List Char) → List Byte → List Byte → List Byte,
    ∀ (hs : Hashes) (p : Prefs) (m : HMode) (m1 m2 : CHMode) (d1 d2 : ChainHashData), GoodAnswers p m m1 m2 d1 d2 →
    ∀ (r : Rand) (clk : Nat → Nat → Nat) (salt plain cipher : List Byte),
      IsEncryption (hs.get m).h (hs.get m).size ((ChainHash.make m1 p.ch1Iters (some d1)).desc.digest (hs.get m).h p.pw) salt
        plain cipher →
      onlooker (hs.get m) (setUp hs p (some d1) (some d2) r clk).text salt cipher = plain := by
  refine ⟨fun H text salt cipher => cryptOut .dec H ((keyOnScreen text).getD []) salt cipher, ?_⟩
  intro hs p m m1 m2 d1 d2 hg r clk salt plain cipher he
  simp only [C105_violated hs p m m1 m2 d1 d2 hg r clk, Option.getD_some]
  exact dec_unique (cryptOut_dec _ _ _ _) he

/-- C105 is violated: the dialogue never ends with a header, whatever is answered, because nothing states the size of the file. -/
theorem C105_violated_header (hs : Hashes) (p : Prefs) (d1 d2 : Option ChainHashData) (r : Rand) (clk : Nat → Nat → Nat)
    (h : Bytes) : (setUp hs p d1 d2 r clk).res ≠ .ok h := by
  have key : ∀ {α β : Type} (x : Shown α) (f : α → Shown β), (∀ a b, (f a).res ≠ .ok b) → ∀ b, (x >>= f).res ≠ .ok b := by
    intro α β x f hf b
    show (Shown.bind x f).res ≠ _
    unfold Shown.bind
    split
    · exact hf _ b
    · simp
    · simp
  revert h
  unfold setUp
  exact key _ _ fun c1 => key _ _ fun c2 => key _ _ fun _ => key _ _ fun ab => (assemble_none hs p c1 c2 ab.1 ab.2 r (clk 2)).2

/-- C105: apart from the hash and the validator, which are the last two lines, nothing that is shown depends on the password,
the random source or the time. -/
theorem C105_rest_partial (hs : Hashes) (p : Prefs) (m : HMode) (m1 m2 : CHMode) (d1 d2 : ChainHashData)
    (hg : GoodAnswers p m m1 m2 d1 d2) : ∃ pub : List (List Char), ∀ (pw : List Byte) (r : Rand) (clk : Nat → Nat → Nat),
      ∃ s t : List Char, (setUp hs { p with pw := pw } (some d1) (some d2) r clk).text =
          pub ++ ["PW HASH: ".toList ++ s, "PW VALIDATOR: ".toList ++ t] ∧
        hexDecode s = some ((ChainHash.make m1 p.ch1Iters (some d1)).desc.digest (hs.get m).h pw) ∧
        hexDecode t = some ((ChainHash.make m2 p.ch2Iters (some d2)).desc.digest (hs.get m).h
          ((ChainHash.make m1 p.ch1Iters (some d1)).desc.digest (hs.get m).h pw)) := by
  obtain ⟨pub, h⟩ := setUp_text hs p m m1 m2 d1 d2 hg
  refine ⟨pub, fun pw r clk => ?_⟩
  obtain ⟨a, b, ha, hb, ht, -⟩ := h pw r clk
  exact ⟨a.toHex, b.toHex, ht, by rw [C05_hex_decode, ha], by rw [C05_hex_decode, hb, ha]⟩

theorem chosen_none {n : Modes.Num} {i : UInt64} {d : Option ChainHashData}
    (h : ∀ m : CHMode, n.toUInt8 = m.toByte → (ChainHash.make m i d).val = false) (c : ChainHash) : chosen n i d ≠ .ok c := by
  unfold chosen
  split
  · simp
  · rename_i m hm
    have hb : n.toUInt8 = m.toByte := by
      have := CHMode.toByte_of_ofByte hm
      exact this.symm
    simp [h m hb]

/-- C105: if one of the two chain hashes cannot be used (its mode is unknown, or it is not valid), nothing at all is shown. -/
theorem C105_refused_partial (hs : Hashes) (p : Prefs) (d1 d2 : Option ChainHashData)
    (hr : (∀ m : CHMode, p.ch1Mode.toUInt8 = m.toByte → (ChainHash.make m p.ch1Iters d1).val = false) ∨
      ∀ m : CHMode, p.ch2Mode.toUInt8 = m.toByte → (ChainHash.make m p.ch2Iters d2).val = false) (r : Rand)
    (clk : Nat → Nat → Nat) : (setUp hs p d1 d2 r clk).text = [] := by
  have stop : ∀ {α β : Type} (x : Res α) (f : α → Shown β), (∀ a, x = .ok a → (f a).text = []) → (Shown.quiet x >>= f).text = [] := by
    intro α β x f hf
    show (Shown.bind _ f).text = _
    cases x with
    | ok a => simpa [Shown.bind, Shown.quiet] using hf a rfl
    | exn e => rfl
    | fatal e => rfl
  unfold setUp
  refine stop _ _ fun c1 h1 => stop _ _ fun c2 h2 => ?_
  rcases hr with hr | hr
  · exact absurd h1 (chosen_none hr c1)
  · exact absurd h2 (chosen_none hr c2)

/-- good answers: SHA-256, one round of plain hashing and three of plain hashing -/
def samplePrefs : Prefs := ⟨1, 1, 1, 1, 1, 3, [97, 98, 99]⟩

example : GoodAnswers samplePrefs .sha256 .normal .normal (ChainHashData.new .normal) (ChainHashData.new .normal) :=
  ⟨rfl, rfl, rfl, rfl, .new _, .new _, rfl, rfl⟩

/-- the screen shows the well-known hash of `abc` -/
example : (setUp sha2 samplePrefs (some (ChainHashData.new .normal)) (some (ChainHashData.new .normal)) ⟨true, fun _ => 7⟩
    (fun _ _ => 0)).text[16]? =
    some "PW HASH: BA7816BF8F01CFEA414140DE5DAE2223B00361A396177A9CB410FF61F20015AD".toList := by decide +kernel

/-- a chain hash with zero iterations, and an unknown mode -/
example : (∀ m : CHMode, (1 : Modes.Num).toUInt8 = m.toByte → (ChainHash.make m 0 (some (ChainHashData.new .normal))).val = false) ∧
    ∀ m : CHMode, (9 : Modes.Num).toUInt8 = m.toByte → (ChainHash.make m 5 (some (ChainHashData.new .normal))).val = false := by
  constructor <;> intro m <;> cases m <;> decide

end Verif.Props
