import Verif.Spec.Random
import Verif.Lemmas.RandomDead
import Verif.Props.NoCrash
import Verif.Props.Flaw

/- Random bytes are for making headers, not for reading them: C100. -/
namespace Verif.Props
open Spec HeaderParse

variable {hs : Hashes} {rest : Api.Helper → Res Api.Helper}

/-- C100, for working sources (missing: `C100_parse_dies`):  what the two parsers answer does not depend on the random bytes, whatever they are given. -/
theorem C100_parse_partial (hs : Hashes) (r r' : Rand) (hr : r.good = true) (hr' : r'.good = true) (s : IStream) (file : Bytes) :
    setHeaderStream hs r' s = setHeaderStream hs r s ∧ setHeaderMem file hs r' = setHeaderMem file hs r :=
  ⟨setHeaderStream_rand hs hr hr' s, setHeaderMem_rand hs hr hr' file⟩

/-- a header in order, read with two sources that deliver different bytes -/
example : sampleRand.take 4 ≠ (openEnv.rand 0).take 4 ∧
    outcome (setHeaderStream toyHashes sampleRand ⟨smallVault, fun _ => 3, false, false⟩) =
      outcome (setHeaderStream toyHashes (openEnv.rand 0) ⟨smallVault, fun _ => 3, false, false⟩) ∧
    (outcome (setHeaderStream toyHashes sampleRand ⟨smallVault, fun _ => 3, false, false⟩)).isOk = true := by
  decide +kernel

theorem getDataHeader_rand {e : Env} {r r' : Rand} (hr : r.good = true) (hr' : r'.good = true) (fs : FS) (f : FileHandler) (i : Nat) :
    f.getDataHeader hs e fs i r' = f.getDataHeader hs e fs i r := by
  unfold FileHandler.getDataHeader
  rw [setHeaderStream_rand hs hr hr']

theorem scan_rand (e : Env) (q : Nat → Rand) (he : Works e.rand) (hq : Works q) (fs : FS) (mode : Byte) (dir : Path)
    (ns : List (List Byte)) : ∀ i ret, Api.getRelevantFileNames.scan hs { e with rand := q } fs mode dir ns i ret =
      Api.getRelevantFileNames.scan hs e fs mode dir ns i ret := by
  induction ns with
  | nil => intro i ret; rfl
  | cons n ns ih =>
    intro i ret
    unfold Api.getRelevantFileNames.scan
    have h1 : ∀ f : FileHandler, f.isDataHeader hs { e with rand := q } fs mode (2 * i + 1) (q i) =
        f.isDataHeader hs e fs mode (2 * i + 1) (e.rand i) := by
      intro f
      have : f.getDataHeader hs e fs (2 * i + 1) (q i) = f.getDataHeader hs e fs (2 * i + 1) (e.rand i) :=
        getDataHeader_rand (he i) (hq i) fs f _
      show f.isDataHeader hs e fs mode (2 * i + 1) (q i) = _
      unfold FileHandler.isDataHeader
      rw [this]
    simp only [h1, ih]
    rfl

/-- C100, for working sources: a call that is not meant to make a header or a salt has the same result, and leaves the same session and disk behind,
whatever the random bytes are. -/
theorem C100_call_partial (c : Call) (hc : ¬ DrawsRandom c) (e : Env) (q : Nat → Rand) (he : Works e.rand) (hq : Works q) (w : World) :
    Api.call hs rest { e with rand := q } w c = Api.call hs rest e w c := by
  cases c with
  | createDataHeader pw ds t => exact absurd trivial hc
  | createDataHeaderTime pw ds => exact absurd trivial hc
  | changeSalt => exact absurd trivial hc
  | selectFile p =>
    have : Api.selectFile hs { e with rand := q } w p = Api.selectFile hs e w p := by
      unfold Api.selectFile Api.selectNonEmptyFile
      have h1 : ∀ f : FileHandler, f.getDataHeader hs { e with rand := q } w.fs 1 (q 0) = f.getDataHeader hs e w.fs 1 (e.rand 0) :=
        fun f => getDataHeader_rand (he 0) (hq 0) w.fs f 1
      simp only [h1]
      rfl
    simp only [Api.call, this]
  | getRelevantFileNames dir =>
    have : ∀ mode, Api.getRelevantFileNames hs { e with rand := q } w.fs mode dir = Api.getRelevantFileNames hs e w.fs mode dir := by
      intro mode
      unfold Api.getRelevantFileNames
      simp only [scan_rand e q he hq]
      rfl
    simp only [Api.call, this]
  | _ => rfl

/-- C100, for working sources: so have whole histories of such calls. -/
theorem C100_run_partial (evs evs' : List Event) (h : SameButRandom evs evs') (w : World) :
    Api.run hs rest w evs' = Api.run hs rest w evs := by
  induction h generalizing w with
  | nil => rfl
  | call c e q evs evs' hc he hq _ ih =>
    unfold Api.run Api.step
    simp only [C100_call_partial c hc e q he hq, ih]
  | outside p n evs evs' _ ih =>
    unfold Api.run Api.step
    simp only [ih]

/-- a source with other bytes -/
def otherRand : Nat → Rand := fun i => ⟨true, fun k => UInt8.ofNat (3 * k + i + 100)⟩

theorem openEnv_works : Works openEnv.rand := fun _ => rfl
theorem otherRand_works : Works otherRand := fun _ => rfl

/-- a vault is put into place, opened and read, with either source -/
example : SameButRandom (.outside samplePath (.file smallVault) :: sampleOpen)
    (.outside samplePath (.file smallVault) :: [.call .logout { openEnv with rand := otherRand },
      .call (.selectFile samplePath) { openEnv with rand := otherRand },
      .call (.verifyPassword samplePw 0) { openEnv with rand := otherRand },
      .call .getDecryptedData { openEnv with rand := otherRand }]) := by
  refine .outside _ _ _ _ (.call _ _ _ _ _ id openEnv_works otherRand_works (.call _ _ _ _ _ id openEnv_works otherRand_works
    (.call _ _ _ _ _ id openEnv_works otherRand_works (.call _ _ _ _ _ id openEnv_works otherRand_works .nil))))
example : runIs (.outside samplePath (.file smallVault) :: sampleOpen.take 2) (fun rs w =>
    rs == [none, some .void, some (.flag (.success true))] && w.api.state == .FILE_SELECTED) = true := by decide +kernel

/-- C100: a call that neither makes nor reads headers does not notice if the random source fails. -/
theorem C100_unneeded (c : Call) (hc : ¬ DrawsRandom c) (hr : ¬ ReadsHeaders c) (e : Env) (q : Nat → Rand) (w : World) :
    Api.call hs rest { e with rand := q } w c = Api.call hs rest e w c := by
  cases c with
  | createDataHeader pw ds t => exact absurd trivial hc
  | createDataHeaderTime pw ds => exact absurd trivial hc
  | changeSalt => exact absurd trivial hc
  | selectFile p => exact absurd trivial hr
  | getRelevantFileNames dir => exact absurd trivial hr
  | _ => rfl

/-- C100: even where a header is made, the answer (not the header) is the same for all random bytes. -/
theorem C100_answer (e : Env) (q : Nat → Rand) (he : Works e.rand) (hq : Works q) (w : World) (pw : List Byte) (ds : SettingsIters)
    (hds : BuiltSettings ds) (t : Nat) (hm : w.api.fileMode = 1) :
    ∃ a w1 w2, Api.call hs rest e w (.createDataHeader pw ds t) = .ok (a, w1) ∧
      Api.call hs rest { e with rand := q } w (.createDataHeader pw ds t) = .ok (a, w2) := by
  obtain ⟨hin, hb⟩ := Api.built_ok hds
  cases hc : ds.isComplete with
  | false => exact ⟨.flag (.fail .ERR_DATAHEADERSETTINGS_INCOMPLETE), w, w, by simp [Api.call, hc], by simp [Api.call, hc]⟩
  | true =>
    obtain ⟨hh, m1, m2, n1, n2, ha⟩ := hin.are hc
    have k := fun e' hr' => Api.create_spec (hs := hs) (e := e') ha hb hr' pw t
    obtain ⟨l1, g1⟩ := k e he
    obtain ⟨l2, g2⟩ := k { e with rand := q } hq
    have hstate : ∀ x y : Api.Helper, ((x.err = .timeout ∧ y.err = .timeout) ∨
        (x.err = .fail .ERR ∧ y.err = .fail .ERR) ∨ ∃ d d', x.err = .success d ∧ y.err = .success d') →
        Api.createDataHeaderIters hs 1 pw ds t e = .ok x →
        Api.createDataHeaderIters hs 1 pw ds t { e with rand := q } = .ok y →
        ∃ a w1 w2, Api.call hs rest e w (.createDataHeader pw ds t) = .ok (a, w1) ∧
          Api.call hs rest { e with rand := q } w (.createDataHeader pw ds t) = .ok (a, w2) := by
      rintro ⟨xe, xp⟩ ⟨ye, yp⟩ h hx hy
      simp only [Api.call, hc, Bool.not_true, Bool.false_eq_true, if_false, hm, hx, hy, Res.bind_ok, Api.headerForEmpty,
        Api.headerForOpen]
      cases w.api.state <;> rcases h with ⟨h1, h2⟩ | ⟨h1, h2⟩ | ⟨d, d', h1, h2⟩ <;> simp only at h1 h2 <;> subst h1 <;> subst h2 <;>
        exact ⟨_, _, _, rfl, rfl⟩
    by_cases hl : Api.Late e t n1.toNat n2.toNat
    · exact hstate _ _ (.inl ⟨rfl, rfl⟩) (l1 hl) (l2 hl)
    · have k1 := g1 hl
      have k2 := g2 hl
      by_cases hcount : ds.dec.length ≤ 255 ∧ ds.enc.length ≤ 255
      · rw [if_pos hcount] at k1 k2
        obtain ⟨d, h1, k1, -⟩ := k1
        obtain ⟨d', h1', k2, -⟩ := k2
        exact hstate _ _ (.inr (.inr ⟨_, _, rfl, rfl⟩)) k1 k2
      · rw [if_neg hcount] at k1 k2
        obtain ⟨h1, k1⟩ := k1
        obtain ⟨h1', k2⟩ := k2
        exact hstate _ _ (.inr (.inl ⟨rfl, rfl⟩)) k1 k2

example : BuiltSettings sampleSettings ∧ (freshWorld fun _ => .missing).api.fileMode = 1 ∧
    -- the headers differ
    runIs (sampleSave.take 2) (fun _ w =>
      match Api.call toyHashes noRest openEnv w (.createDataHeader samplePw sampleSettings 0),
        Api.call toyHashes noRest { openEnv with rand := otherRand } w (.createDataHeader samplePw sampleSettings 0) with
      | .ok (r1, w1), .ok (r2, w2) => r1 == r2 && r1 == .flag (.success true) && decide (w1.api.dh ≠ w2.api.dh)
      | _, _ => false) = true := ⟨usable_sample.built, rfl, by decide +kernel⟩

/-- C100 is violated by a failing source: reading a header dies exactly if the sizes at its start are in order and the hash mode
is known, that is, with every header in order. Otherwise the answer is the error of the first flaw, as with a working source. -/
theorem C100_parse_dies (hs : Hashes) (r : Rand) (hr : r.good = false) (l : List Byte) (hl : l.length < 2 ^ 64) (s : IStream)
    (hf : Fresh s l) :
    (setHeaderStream hs r s = .fatal .terminate ↔ ModesRead l) ∧
    (¬ ModesRead l → ∃ c, Flaw l c ∧ setHeaderStream hs r s = .ok (.stop c)) := by
  have hsim := setHeaderStream_eq hs r s hf.2
  rw [hf.1] at hsim
  rcases rdHeader_bad (hs := hs) hr hl with ⟨hm, h⟩ | ⟨hm, c, hc, h⟩
  · rw [h] at hsim
    exact ⟨⟨fun _ => hm, fun _ => hsim⟩, fun h => absurd hm h⟩
  · rw [h] at hsim
    have hsim : setHeaderStream hs r s = .ok (.stop c) := hsim
    exact ⟨⟨(fun h => by rw [hsim] at h; cases h), fun h => absurd h hm⟩, fun _ => ⟨c, hc, hsim⟩⟩

/-- C100 is violated: with a failing random source, selecting a file that passes for one of the program's kills the process if
its hash mode, the byte after the sizes and the file mode, is known. -/
theorem C100_select_dies (e : Env) (hr : (e.rand 0).good = false) (w : World) (hst : w.api.state = .INIT) (p : Path)
    (hp : EncPath p) (c : List Byte) (hc : w.fs p = .file c) (hread : e.canRead p = true) (hl : c.length < 2 ^ 63)
    (hne : c ≠ []) (n : Nat) (hn : Plausible c n) :
    (c[17]? = some 1 ∨ c[17]? = some 2 ∨ c[17]? = some 3 → Api.call hs rest e w (.selectFile p) = .fatal .terminate) ∧
    (¬ (c[17]? = some 1 ∨ c[17]? = some 2 ∨ c[17]? = some 3) →
      Api.call hs rest e w (.selectFile p) = .ok (.flag (.fail .ERR_HASHMODE_INVALID), w)) := by
  have hf : Api.getFileHandler e w.fs p 0 = .ok (.success ⟨p, n, c.length, false⟩) := by
    rcases update_file hc hread (by omega) 0 with ⟨n', hn', hu⟩ | ⟨hno, -⟩
    · rw [plausible_unique (by omega) hn hn']
      have : c.isEmpty = false := by cases c <;> simp_all
      rw [this] at hu
      exact Api.getFileHandler_ok hp hc hread hu
    · exact absurd ⟨n, hn⟩ hno
  have ho : w.fs.openIn e p 1 = ⟨c, e.sched 1, false, false⟩ := by simp [FS.openIn, hc, hread]
  obtain ⟨k1, k2⟩ := C100_parse_dies hs (e.rand 0) hr c (by omega) (w.fs.openIn e p 1) (by rw [ho]; exact ⟨rfl, rfl⟩)
  obtain ⟨rest', hrest, h104, hle⟩ : ∃ rest, c = num8 c.length ++ (num8 n ++ rest) ∧ 104 ≤ n ∧ n ≤ c.length := by
    rcases hn with ⟨h, -⟩ | h
    · exact absurd h hne
    · exact h
  obtain ⟨fm, hmode, tl, rfl⟩ : ∃ fm hm tl, rest' = fm :: hm :: tl := by
    have := congrArg List.length hrest
    simp only [List.length_append, length_num8] at this
    rcases rest' with _ | ⟨a, _ | ⟨b, tl⟩⟩
    · simp at this; omega
    · simp at this; omega
    · exact ⟨a, b, tl, rfl⟩
  have h17 : c[17]? = some hmode := by
    rw [hrest, List.getElem?_append_right (by simp), List.getElem?_append_right (by simp)]
    simp
  rw [h17]
  simp only [Option.some.injEq]
  simp only [Api.call, hst, Api.selectFile, hf, Res.bind_ok, FileHandler.isEmpty, Bool.false_eq_true, if_false,
    Api.selectNonEmptyFile, FileHandler.getDataHeader]
  constructor
  · intro h
    rw [k1.mpr ⟨n, fm, hmode, tl, hrest, hle, h⟩]
    rfl
  · intro h
    have hno : ¬ ModesRead c := by
      rintro ⟨n', fm', hm', tl', h', -, hk⟩
      have : c[17]? = some hm' := by
        rw [h', List.getElem?_append_right (by simp), List.getElem?_append_right (by simp)]
        simp
      rw [h17] at this
      cases this
      exact h hk
    obtain ⟨code, hcode, hx⟩ := k2 hno
    have : code = .ERR_HASHMODE_INVALID :=
      (C94_classified c (by omega)).2.2.2 _ _ hcode (.hashMode n fm hmode tl hrest hle h)
    rw [hx, this]
    rfl

/-- a source that fails -/
def noRand : Nat → Rand := fun _ => ⟨false, fun _ => 0⟩

/-- C100 is violated: a good vault, selected or only lying in a directory that is listed, kills a session without a random
source; opened before the source failed, it can be read. -/
theorem C100_violated :
    Headed 1 smallVault ∧
    runDies (oneFile samplePath smallVault) [.call (.selectFile samplePath) { openEnv with rand := noRand }] .terminate = true ∧
    runDies (fun p => if p = ascii "v" then .dir else if p = ascii "v/a.enc" then .file smallVault else .missing)
      [.call (.getRelevantFileNames (ascii "v")) { openEnv with rand := noRand, list := fun _ => [ascii "a.enc"] }] .terminate = true ∧
    runIs (sampleSave ++ sampleOpen.take 2 ++ [.call (.verifyPassword samplePw 0) { openEnv with rand := noRand },
      .call .getDecryptedData { openEnv with rand := noRand }]) (fun _ w => w.api.state == .DECRYPTED) = true :=
  ⟨smallVault_headed, by decide +kernel, by decide +kernel, by decide +kernel⟩

example : Plausible smallVault 104 ∧ smallVault ≠ [] ∧ smallVault[17]? = some 1 ∧ ModesRead smallVault ∧
    Plausible plausibleFile 104 ∧ plausibleFile[17]? = some 7 ∧ (noRand 0).good = false :=
  ⟨.inr ⟨_, rfl, by decide, by decide +kernel⟩, by decide +kernel, by decide +kernel,
    ⟨104, 1, 1, _, rfl, by decide +kernel, by decide⟩, .inr ⟨List.replicate 104 7, by decide +kernel, by decide, by decide +kernel⟩,
    by decide +kernel, rfl⟩

end Verif.Props
