import Verif.Lemmas.Handler
import Verif.Props.FileSys

/- What an object of `FileHandler` says about its file over its life: C98. -/
namespace Verif.Props
open Spec

/-- C98: an `update` says about a readable file, whatever the object knew before, what a new object says; it throws for the files for
which the constructor throws, with the same exception. In both cases the object knows the size of the file afterwards. -/
theorem C98_update (e : Env) (fs : FS) (f : FileHandler) (i : Nat) :
    ((f.refresh e fs i).1 = .ok () → FileHandler.update e fs f.path i = .ok (f.refresh e fs i).2) ∧
    (∀ x, (f.refresh e fs i).1 = .exn x ↔ FileHandler.update e fs f.path i = .exn x) ∧
    (∀ g, FileHandler.update e fs f.path i = .ok g → f.refresh e fs i = (.ok (), g)) ∧
    (∀ c, fs f.path = .file c → e.canRead f.path = true →
      (f.refresh e fs i).2.fileSize = c.length ∧ ((f.refresh e fs i).2.isEmpty = true ↔ c = [])) := by
  have hup : FileHandler.update e fs f.path i = (f.refresh e fs i).1.bind fun _ => .ok (f.refresh e fs i).2 := by
    simp only [FileHandler.update, FileHandler.refresh]
    cases FileHandler.readHeaderSize (fs.openIn e f.path i) (FileHandler.measure e fs f.path) with
    | ok n =>
      simp only [Res.bind_ok]
      split
      · rfl
      · split <;> rfl
    | exn x => rfl
    | fatal x => rfl
  refine ⟨fun h => by rw [hup, h]; rfl, fun x => ?_, fun g h => ?_, fun c hc hr => ?_⟩
  · rw [hup]
    cases (f.refresh e fs i).1 <;> simp [Res.bind]
  · rw [hup] at h
    cases h1 : (f.refresh e fs i).1 with
    | ok u =>
      rw [h1] at h
      cases h
      exact Prod.ext h1 rfl
    | exn x => rw [h1] at h; cases h
    | fatal x => rw [h1] at h; cases h
  · have hm : FileHandler.measure e fs f.path = c.length := by simp [FileHandler.measure, hc, hr]
    have : (f.refresh e fs i).2.fileSize = c.length ∧ (f.refresh e fs i).2.empty = (c.length == 0) := by
      simp only [FileHandler.refresh, hm]
      cases FileHandler.readHeaderSize (fs.openIn e f.path i) c.length with
      | ok n =>
        simp only []
        split
        · exact ⟨rfl, rfl⟩
        · split <;> exact ⟨rfl, rfl⟩
      | exn x => exact ⟨rfl, rfl⟩
      | fatal x => exact ⟨rfl, rfl⟩
    refine ⟨this.1, ?_⟩
    show (f.refresh e fs i).2.empty = true ↔ _
    rw [this.2]
    simp

/-- an object that knew another version of the file -/
example : let f : FileHandler := ⟨ascii "a.enc", 104, 300, false⟩
    f.refresh openEnv (oneFile (ascii "a.enc") plausibleFile) 0 = (.ok (), ⟨ascii "a.enc", 104, 120, false⟩) := by decide +kernel

/-- C98, as far as it holds: in a life in which no `update` throws the sizes go together, so the size of the data is computed without
wrapping around. Missing: after an `update` that throws, see `C98_violated_sizes`. -/
theorem C98_sizes_partial (us : List FileHandler.Use) : ∀ (f : FileHandler) (fs : FS) (as : List FileHandler.Answer) (f' : FileHandler)
    (fs' : FS), f.headerSize ≤ f.fileSize → f.uses fs us = .ok (as, f', fs') → (∀ x, FileHandler.Answer.threw x ∉ as) →
    f'.path = f.path ∧ f'.headerSize ≤ f'.fileSize ∧ f'.dataSizeWord = UInt64.ofNat (f'.fileSize - f'.headerSize) := by
  induction us with
  | nil =>
    intro f fs as f' fs' hf h _
    cases h
    refine ⟨rfl, hf, ?_⟩
    rw [FileHandler.dataSizeWord, UInt64.ofNat_sub hf]
  | cons u us ih =>
    intro f fs as f' fs' hf h hno
    simp only [FileHandler.uses] at h
    obtain ⟨⟨a, f1, fs1⟩, h1, h⟩ := Res.bind_eq_ok.mp h
    obtain ⟨⟨as1, f2, fs2⟩, h2, h⟩ := Res.bind_eq_ok.mp h
    cases h
    have hno1 : ∀ x, FileHandler.Answer.threw x ∉ as1 := fun x hx => hno x (List.mem_cons_of_mem _ hx)
    have step : f1.path = f.path ∧ f1.headerSize ≤ f1.fileSize := by
      have stream : ∀ {e : Env} {x : List Byte} {o : Out Unit} {g : FileHandler} {gs : FS}, g.path = f.path → g.headerSize ≤ g.fileSize →
          FileHandler.putInto e x (o, g, gs) = (a, f1, fs1) → f1.path = f.path ∧ f1.headerSize ≤ f1.fileSize := by
        intro e x o g gs hp hs hput
        cases o <;> cases hput <;> exact ⟨hp, hs⟩
      cases u with
      | update e =>
        simp only [FileHandler.use] at h1
        split at h1
        · rename_i g hg
          cases h1
          have := (C98_update e fs f 0).1 (by rw [hg])
          rw [hg] at this
          exact ⟨refresh_path this, update_sizes this⟩
        · cases h1
          exact absurd (List.mem_cons_self ..) (hno _)
        · cases h1
      | write e x =>
        simp only [FileHandler.use] at h1
        obtain ⟨⟨o, g, gs⟩, hg, h1⟩ := Res.bind_eq_ok.mp h1
        obtain ⟨rfl, -⟩ := Api.getWriteStream_cases hg
        exact stream (by rfl) (Nat.le_refl 0) (Res.ok.inj h1)
      | writeIfEmpty e x =>
        simp only [FileHandler.use] at h1
        obtain ⟨⟨o, g, gs⟩, hg, h1⟩ := Res.bind_eq_ok.mp h1
        rw [FileHandler.getWriteStreamIfEmpty, Res.noexcept_eq_ok] at hg
        split at hg
        · obtain ⟨rfl, -⟩ := Api.getWriteStream_cases hg
          exact stream (by rfl) (Nat.le_refl 0) (Res.ok.inj h1)
        · cases hg
          exact stream rfl hf (Res.ok.inj h1)
      | outside p n => cases h1; exact ⟨rfl, hf⟩
    obtain ⟨k1, k2, k3⟩ := ih f1 fs1 as1 f2 fs2 step.2 h2 hno1
    exact ⟨k1.trans step.1, k2, k3⟩

/-- C98 is violated: the content was replaced by one to seven bytes. The `update` throws and leaves the header size of the old content
beside the file size of the new one; the size of the data is reported as almost 2⁶⁴. -/
theorem C98_violated_sizes (e : Env) (fs : FS) (f : FileHandler) (i : Nat) (c : List Byte) (hc : fs f.path = .file c)
    (hr : e.canRead f.path = true) (h0 : c ≠ []) (h8 : c.length < 8) (hh : 104 ≤ f.headerSize) (h64 : f.headerSize < 2 ^ 64) :
    (f.refresh e fs i).1 = .exn .lengthError ∧
    (f.refresh e fs i).2.dataSizeWord.toNat = 2 ^ 64 - f.headerSize + c.length := by
  have hm : FileHandler.measure e fs f.path = c.length := by simp [FileHandler.measure, hc, hr]
  have ho : fs.openIn e f.path i = ⟨c, e.sched i, false, false⟩ := by simp [FS.openIn, hc, hr]
  have hl : c.length ≠ 0 := by simpa using h0
  have : f.refresh e fs i = (.exn .lengthError, { f with fileSize := c.length, empty := c.length == 0 }) := by
    simp only [FileHandler.refresh, hm, ho, readHeaderSize_eq, if_pos h8, if_neg hl]
  rw [this]
  refine ⟨rfl, ?_⟩
  show (UInt64.ofNat c.length - UInt64.ofNat f.headerSize).toNat = _
  rw [UInt64.toNat_sub, UInt64.toNat_ofNat', UInt64.toNat_ofNat']
  rw [Nat.mod_eq_of_lt (a := c.length) (by omega), Nat.mod_eq_of_lt h64]
  omega

example : let f : FileHandler := ⟨ascii "a.enc", 104, 120, false⟩
    FileHandler.new openEnv (oneFile (ascii "a.enc") plausibleFile) (ascii "a.enc") 0 = .ok f ∧
    f.refresh openEnv (oneFile (ascii "a.enc") [1, 2, 3]) 0 = (.exn .lengthError, ⟨ascii "a.enc", 104, 3, false⟩) := by decide +kernel

/-- C98: whatever an `update` of a readable file with content answers, the object refuses afterwards to write "if empty", whatever has
happened to other files. -/
theorem C98_write_safe_partial (e : Env) (fs : FS) (f : FileHandler) (i : Nat) (c : List Byte) (hc : fs f.path = .file c)
    (hr : e.canRead f.path = true) (h0 : c ≠ []) (e' : Env) (fs' : FS) (x : List Byte) :
    (f.refresh e fs i).2.use fs' (.writeIfEmpty e' x) =
      .ok (.stream (.fail .ERR_FILE_NOT_EMPTY), (f.refresh e fs i).2, fs') := by
  have h := ((C98_update e fs f i).2.2.2 c hc hr).2
  have : (f.refresh e fs i).2.isEmpty = false := by
    cases hx : (f.refresh e fs i).2.isEmpty with
    | false => rfl
    | true => exact absurd (h.mp hx) h0
  simp only [FileHandler.use, FileHandler.getWriteStreamIfEmpty, this]
  rfl

/-- the writes go through -/
structure Lets (e : Env) (fs : FS) (p : Path) : Prop where
  path : EncPath p
  read : e.canRead p = true
  write : e.canWrite p = true
  file : ∃ c, fs p = .file c

theorem Lets.stream {e : Env} {fs : FS} {f : FileHandler} (h : Lets e fs f.path) :
    f.getWriteStream e fs = .ok (.success (), { f with headerSize := 0, fileSize := 0 }, fs.set f.path (.file [])) := by
  obtain ⟨c, hc⟩ := h.file
  have h1 : f.path ≠ [] := by
    intro h0
    have := (extension_iff f.path).mpr h.path
    rw [h0] at this
    revert this
    decide
  simp only [FileHandler.getWriteStream, isValidPath_true, if_neg h1, (extension_iff f.path).mpr h.path, ne_eq, not_true, if_false, hc,
    h.read, if_true, Res.bind_ok, FS.openOut, h.write]
  rfl

/-- C98 is violated: an object that found its file empty keeps saying so after it wrote to it, and the second write "if empty" destroys
what the first one wrote. -/
theorem C98_violated_twice (e : Env) (fs : FS) (f : FileHandler) (hf : f.isEmpty = true) (h : Lets e fs f.path) (x y : List Byte) :
    f.uses fs [.writeIfEmpty e x, .writeIfEmpty e y] =
      .ok ([.stream (.success ()), .stream (.success ())], { f with headerSize := 0, fileSize := 0 },
        fs.set f.path (.file (y.take e.stored))) := by
  have h1 : ∀ {g : FileHandler} {gs : FS} {z : List Byte}, g.isEmpty = true → Lets e gs g.path →
      g.use gs (.writeIfEmpty e z) = .ok (.stream (.success ()), { g with headerSize := 0, fileSize := 0 },
        gs.set g.path (.file (z.take e.stored))) := by
    intro g gs z hg hl
    simp only [FileHandler.use, FileHandler.getWriteStreamIfEmpty, hg, if_true, hl.stream, Res.noexcept, Res.bind_ok, FileHandler.putInto,
      Api.set_set]
  simp only [FileHandler.uses, h1 hf h, Res.bind_ok]
  rw [h1 (g := { f with headerSize := 0, fileSize := 0 }) hf ⟨h.path, h.read, h.write, ⟨x.take e.stored, by simp [FS.set]⟩⟩]
  simp only [Res.bind_ok, Api.set_set]

/-- C98 is violated the other way round: an object that found content says "not empty" and size 0 after a write stream emptied the
file, and refuses to write "if empty". -/
theorem C98_violated_flag (e : Env) (fs : FS) (f : FileHandler) (hf : f.isEmpty = false) (h : Lets e fs f.path) (y : List Byte) :
    ∃ f', f.uses fs [.write e [], .writeIfEmpty e y] =
      .ok ([.stream (.success ()), .stream (.fail .ERR_FILE_NOT_EMPTY)], f', fs.set f.path (.file [])) ∧
      f'.isEmpty = false ∧ f'.fileSize = 0 := by
  refine ⟨{ f with headerSize := 0, fileSize := 0 }, ?_, hf, rfl⟩
  have hf' : FileHandler.isEmpty { f with headerSize := 0, fileSize := 0 } = false := hf
  simp only [FileHandler.uses, FileHandler.use, h.stream, Res.bind_ok, FileHandler.putInto, FileHandler.getWriteStreamIfEmpty, hf',
    List.take_nil, Api.set_set]
  rfl

/-- C98 is violated: an `update` while the file cannot be read (or is not there) succeeds and says "empty"; a write "if empty" after
that, when it can be read again, destroys the content. -/
theorem C98_violated_unreadable (e e' : Env) (fs : FS) (f : FileHandler) (c : List Byte) (hc : fs f.path = .file c)
    (hn : e.canRead f.path = false) (h : Lets e' fs f.path) (y : List Byte) :
    ∃ f', f.uses fs [.update e, .writeIfEmpty e' y] =
      .ok ([.done, .stream (.success ())], f', fs.set f.path (.file (y.take e'.stored))) := by
  have hm : FileHandler.measure e fs f.path = 0 := by simp [FileHandler.measure, hc, hn]
  have ho : fs.openIn e f.path 0 = ⟨[], e.sched 0, false, true⟩ := by simp [FS.openIn, hc, hn]
  have h1 : f.refresh e fs 0 = (.ok (), ⟨f.path, 0, 0, true⟩) := by
    simp only [FileHandler.refresh, hm, ho, readHeaderSize_eof]
    rfl
  have h2 : FileHandler.getWriteStream e' fs ⟨f.path, 0, 0, true⟩ = _ := Lets.stream (f := ⟨f.path, 0, 0, true⟩) h
  refine ⟨⟨f.path, 0, 0, true⟩, ?_⟩
  simp only [FileHandler.uses, FileHandler.use, h1, FileHandler.getWriteStreamIfEmpty, FileHandler.isEmpty, if_true, h2, Res.noexcept,
    Res.bind_ok, FileHandler.putInto, Api.set_set]

example : Lets openEnv (oneFile (ascii "a.enc") [1]) (ascii "a.enc") ∧ ({ openEnv with canRead := fun _ => false }).canRead [] = false :=
  ⟨⟨⟨[], ascii "a", by decide, by decide, by decide, .inl rfl⟩, rfl, rfl, ⟨[1], by decide⟩⟩, rfl⟩

/-- C98 in the program: whatever is called, the sizes in the handler of a session go together. The data to decrypt never has a size
that wrapped around. -/
theorem C98_session {hs : Hashes} {rest : Api.Helper → Res Api.Helper} (mode : Byte) (s0 : Session) (h0 : Api.new mode = .ok s0) (fs : FS)
    (evs : List Event) (rs : List (Option Ret)) (w : World) (h : Api.run hs rest ⟨s0, fs⟩ evs = .ok (rs, w)) (f : FileHandler)
    (hf : w.api.selected = some f) :
    f.headerSize ≤ f.fileSize ∧ f.dataSizeWord = UInt64.ofNat f.getDataSize := by
  have key : ∀ (evs : List Event) (w0 w : World) (rs : List (Option Ret)),
      (∀ f, w0.api.selected = some f → f.headerSize ≤ f.fileSize) → Api.run hs rest w0 evs = .ok (rs, w) →
      ∀ f, w.api.selected = some f → f.headerSize ≤ f.fileSize := by
    intro evs
    induction evs with
    | nil => intro w0 w rs hi h; cases h; exact hi
    | cons ev evs ih =>
      intro w0 w rs hi h
      simp only [Api.run] at h
      obtain ⟨⟨r, w1⟩, h1, h⟩ := Res.bind_eq_ok.mp h
      obtain ⟨⟨rs1, w2⟩, h2, h⟩ := Res.bind_eq_ok.mp h
      cases h
      refine ih w1 w2 rs1 ?_ h2
      cases ev with
      | call c e =>
        obtain ⟨⟨rr, w3⟩, h3, h1⟩ := Res.bind_eq_ok.mp h1
        cases h1
        intro f' hf'
        rcases Api.call_sizes h3 f' hf' with hk | hk
        · exact hi f' hk
        · exact hk
      | outside p n => cases h1; exact hi
  have hle := key evs ⟨s0, fs⟩ w rs (by
    intro f hf
    have : s0.selected = none := by
      simp only [Api.new] at h0
      split at h0 <;> cases h0
      rfl
    rw [this] at hf
    cases hf) h f hf
  refine ⟨hle, ?_⟩
  rw [FileHandler.dataSizeWord, FileHandler.getDataSize, UInt64.ofNat_sub hle]

end Verif.Props
