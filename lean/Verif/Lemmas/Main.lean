import Verif.Model.Main
import Verif.Spec.Main
import Verif.Lemmas.Faults

/- The demonstration program: its parts, step by step. -/
namespace Verif.Demo
open Spec Api PwFunc
variable {hs : Hashes} {rest : Helper → Res Helper} {e : Env} {w w' : World} {v : Vault} {F : Path → Prop}

theorem next_ok {α : Type} {fs : FS} {x : Res α} {a : α} {k : α → Res Ret × FS} (h : x = .ok a) : next fs x k = k a := by
  rw [h]; rfl

/-- the program goes on, or it ends with the disk as it is -/
theorem next_cases {α : Type} {fs fs' : FS} {x : Res α} {k : α → Res Ret × FS} {r : Res Ret} (h : next fs x k = (r, fs')) :
    (∃ a, x = .ok a ∧ k a = (r, fs')) ∨ (fs' = fs ∧ ∀ y, r ≠ .ok y) := by
  cases x with
  | ok a => exact .inl ⟨a, rfl, h⟩
  | exn x => cases h; exact .inr ⟨rfl, fun _ h => (by cases h)⟩
  | fatal x => cases h; exact .inr ⟨rfl, fun _ h => (by cases h)⟩

theorem file_eq : Path.join demoDir fileName = demoFile := by decide

theorem file_path : EncPath demoFile := (extension_iff _).mp (by decide)

theorem settings_eq : settings = .ok demoSettings := by decide

theorem settings_usable {ds : SettingsIters} (h : settings = .ok ds) : Usable ds := by
  rw [settings_eq] at h
  cases h
  refine ⟨⟨⟨[(.fileMode, 1), (.hashMode, 1), (.ch1Mode, 4), (.ch2Mode, 5), (.num1, 1000000), (.num2, 200000)], [], [], rfl⟩,
    ?_, ?_⟩, rfl, by decide, by decide, ?_⟩ <;> simp [demoSettings]

theorem new_eq : Api.new 1 = .ok ⟨.INIT, 1, none, Bytes.empty 0, none, none, none⟩ := rfl

theorem start_dir {e : Env} {fs : FS} {d : Path} (h : start e fs = .ok d) : d = demoDir := by
  unfold start at h
  obtain ⟨o, ho, h⟩ := Res.bind_eq_ok.mp h
  unfold getEncDirPath at ho
  rw [Res.noexcept_eq_ok] at ho
  obtain ⟨x, -, ho⟩ := Res.bind_eq_ok.mp ho
  split at ho
  · cases ho; cases h
  · cases ho
    obtain ⟨o, -, h⟩ := Res.bind_eq_ok.mp h
    split at h
    · cases h; rfl
    · cases h

theorem pick_ok {fs : FS} {dir : Path} : ∀ ns : List (List Byte), (∀ n ∈ ns, fs (Path.join dir n) ≠ .unreachable) →
    ∃ r, getAllEncFileNames.pick fs dir ns = .ok r
  | [], _ => ⟨[], rfl⟩
  | n :: ns, h => by
    obtain ⟨r, hr⟩ := pick_ok ns fun m hm => h m (List.mem_cons_of_mem _ hm)
    have hn := h n (List.mem_cons_self ..)
    unfold getAllEncFileNames.pick
    split
    · rename_i hx; exact absurd hx hn
    · rw [hr]; exact ⟨_, rfl⟩
    · exact ⟨r, hr⟩

theorem start_ok {fs : FS} (h : Listable e fs) : start e fs = .ok demoDir := by
  have h1 : getEncDirPath fs = .ok (.success demoDir) := by
    have : fs.existsAt (ascii "data/enc") = .ok true := by
      have := h.dir
      unfold demoDir at this
      simp only [FS.existsAt, this]
    simp only [getEncDirPath, this, Res.bind_ok, Bool.not_true, Bool.false_eq_true, if_false, Res.noexcept_ok]
    rfl
  obtain ⟨r, hr⟩ := pick_ok _ h.entries
  have h2 : getAllEncFileNames e fs demoDir = .ok (.success r) := by
    have hx : fs.existsAt demoDir = .ok true := by simp only [FS.existsAt, h.dir]
    have hn : ¬ (fs demoDir ≠ .dir ∨ e.canList demoDir = false) := by simp [h.dir, h.allowed]
    have h0 : demoDir ≠ [] := by decide
    simp only [getAllEncFileNames, if_neg h0, hx, Res.bind_ok, Bool.not_true, Bool.false_eq_true, if_false, if_neg hn, hr,
      Res.noexcept_ok]
  unfold start
  rw [h1, Res.bind_ok]
  simp only [h2, Res.bind_ok]

theorem addFive_ok {b : Bytes} (h : b.data.length + 5 ≤ b.cap) :
    addFive b = .ok ⟨b.data ++ [0, 1, 2, 3, 4], b.cap⟩ := by
  have key : ∀ (l : List Byte) (x : Byte), l.length < b.cap → Bytes.addByte ⟨l, b.cap⟩ x = .ok ⟨l ++ [x], b.cap⟩ := by
    intro l x hl
    simp only [Bytes.addByte]
    rw [if_neg (by omega)]
  unfold addFive
  rw [key b.data _ (by omega), Res.bind_ok, key _ _ (by simp; omega), Res.bind_ok, key _ _ (by simp; omega), Res.bind_ok,
    key _ _ (by simp; omega), Res.bind_ok, key _ _ (by simp; omega)]
  simp

theorem appended_ok {m : Option Byte} {b : Bytes} :
    appended (.data (.success ⟨m, some b⟩)) = .ok ⟨m, some ⟨b.data ++ [0, 1, 2, 3, 4], b.data.length + 5⟩⟩ := by
  have h1 : b.addcopyToBytes (Bytes.empty (b.len + 5)) = .ok ⟨b.data, b.data.length + 5⟩ := by
    unfold Bytes.addcopyToBytes
    rw [if_neg (by simp [Bytes.empty, Bytes.len])]
    rfl
  simp only [appended, deref, Res.bind_ok, h1, Bytes.copyExtra]
  rw [addFive_ok (by simp), Res.bind_ok]

theorem replaced_ok {m : Option Byte} {b : Bytes} :
    replaced (.data (.success ⟨m, some b⟩)) = .ok ⟨m, some ⟨[0, 1, 2, 3, 4], 5⟩⟩ := by
  simp only [replaced, deref, Res.bind_ok]
  rw [addFive_ok (by simp [Bytes.empty]), Res.bind_ok]
  simp [Bytes.copyExtra, Bytes.empty]

theorem appended_data {r : Ret} {fd : FileDataStruct} (h : appended r = .ok fd) :
    ∃ m b, r = .data (.success ⟨m, some b⟩) := by
  unfold appended at h
  split at h
  · rename_i fd
    obtain ⟨b, hb, -⟩ := Res.bind_eq_ok.mp h
    rw [deref_ok] at hb
    obtain ⟨m, d⟩ := fd
    cases hb
    exact ⟨m, b, rfl⟩
  · cases h

theorem replaced_data {r : Ret} {fd : FileDataStruct} (h : replaced r = .ok fd) :
    ∃ m b, r = .data (.success ⟨m, some b⟩) := by
  unfold replaced at h
  split at h
  · rename_i fd
    obtain ⟨b, hb, -⟩ := Res.bind_eq_ok.mp h
    rw [deref_ok] at hb
    obtain ⟨m, d⟩ := fd
    cases hb
    exact ⟨m, b, rfl⟩
  · cases h

/-- calls that leave the disk alone -/
theorem same_disk {c : Call} {r : Ret} (h : call hs rest e w c = .ok (r, w')) (hc : ∀ q, ¬ mayTouch w.api q (.call c e)) :
    w'.fs = w.fs := funext fun q => (call_frame h).1 q (hc q)

theorem same_file {c : Call} {r : Ret} {p : Path} (h : call hs rest e w c = .ok (r, w'))
    (hc : ∀ q, c = .selectFile q → q = p) (hw : ∀ f, w.api.selected = some f → f.path = p) :
    ∀ f, w'.api.selected = some f → f.path = p := by
  intro f hf
  rcases (call_frame h).2.2 f hf with ⟨g, hg, hp⟩ | hx
  · rw [← hp]; exact hw g hg
  · exact hc _ hx

/-- the answer of a save, whatever happens -/
theorem write_cases {r : Ret} {p : Path} (h : call hs rest e w .writeToFile = .ok (r, w'))
    (hw : ∀ f, w.api.selected = some f → f.path = p) :
    (r ≠ .plain (.success ()) ∧ w'.fs = w.fs) ∨
    (r = .plain (.success ()) ∧ w.api.state = .ENCRYPTED ∧ ∃ b, fullData w.api = .ok b ∧
      w'.fs = w.fs.set p (.file (b.data.take e.stored))) := by
  simp only [call] at h
  split at h
  · rename_i hst
    obtain ⟨⟨o, w1⟩, hc, h⟩ := Res.bind_eq_ok.mp h
    cases h
    obtain ⟨f, hf, hx⟩ := writeToSelected_cases hc
    rcases hx with ⟨h1, h2, -⟩ | ⟨rfl, -, -, -, -, b, h1, -, h2⟩
    · exact .inl ⟨fun h => h1 (by cases h; rfl), h2⟩
    · exact .inr ⟨rfl, hst, b, h1, by rw [h2, hw f hf]⟩
  · cases h
    exact .inl ⟨by simp [wrongState], rfl⟩

/-- the common end -/
theorem finish_cases {en : Nat → Env} {fd : FileDataStruct} {r : Res Ret} {fs' : FS} {p : Path}
    (h : finish hs rest en w fd = (r, fs')) (hw : ∀ f, w.api.selected = some f → f.path = p) :
    (¬ Saved r ∧ fs' = w.fs) ∨
    (Saved r ∧ ∃ r1 r2 w1 w2, call hs rest (en 4) w .changeSalt = .ok (r1, w1) ∧
      call hs rest (en 5) w1 (.encryptData (some fd)) = .ok (r2, w2) ∧ w2.api.state = .ENCRYPTED ∧
      ∃ b, fullData w2.api = .ok b ∧ fs' = w.fs.set p (.file (b.data.take (en 6).stored))) := by
  unfold finish at h
  rcases next_cases h with ⟨⟨r1, w1⟩, h1, h⟩ | ⟨rfl, hd⟩
  case inr => exact .inl ⟨fun hx => hd _ hx, rfl⟩
  have f1 := same_disk h1 fun q hq => hq
  have g1 := same_file h1 (fun q hq => by cases hq) hw
  rcases next_cases h with ⟨⟨r2, w2⟩, h2, h⟩ | ⟨rfl, hd⟩
  case inr => exact .inl ⟨fun hx => hd _ hx, f1⟩
  have f2 := same_disk h2 fun q hq => hq
  have g2 := same_file h2 (fun q hq => by cases hq) g1
  rcases next_cases h with ⟨⟨r3, w3⟩, h3, h⟩ | ⟨rfl, hd⟩
  case inr => exact .inl ⟨fun hx => hd _ hx, by rw [f2, f1]⟩
  cases h
  rcases write_cases h3 g2 with ⟨h4, h5⟩ | ⟨rfl, h5, b, h6, h7⟩
  · exact .inl ⟨fun hx => h4 (Res.ok.inj hx), by rw [h5, f2, f1]⟩
  · exact .inr ⟨rfl, r1, r2, w1, w2, h1, h2, h5, b, h6, by rw [h7, f2, f1]⟩

/-- changing the salt and encrypting -/
theorem sealed_after {e4 e5 : Env} (hl : Linked hs F v w) {p : Path} {L : List Byte → Prop} {pw : List Byte} {fr : Bool}
    (hp : v.phase = .opened p L pw fr) (h4 : ∀ i, (e4.rand i).good = true) {data : Bytes} (hd : data.data.length < 2 ^ 31) :
    ∃ r1 w1 r2 w2 d m f r, call hs rest e4 w .changeSalt = .ok (r1, w1) ∧
      call hs rest e5 w1 (.encryptData (some ⟨some 1, some data⟩)) = .ok (r2, w2) ∧ w2.fs = w.fs ∧
      Sealed hs w2 p L pw data.data d m f r := by
  obtain ⟨r1, w1, v1, c1, s1, l1, -⟩ := sim_salt (rest := rest) hl h4 hp
  have hv1 : v1 = v := by cases s1 <;> simp_all
  subst hv1
  obtain ⟨r2, w2, v2, c2, s2, l2, -⟩ := sim_encrypt (rest := rest) (e := e5) l1 hp (mode := some 1) hd
  obtain ⟨-, rfl⟩ := s2.at_encrypt hp
  obtain ⟨d, m, f, r, hx⟩ := l2.phase
  exact ⟨r1, w1, r2, w2, d, m, f, r, c1, c2,
    (same_disk c2 fun q hq => hq).trans (same_disk c1 fun q hq => hq), hx⟩

theorem sealed_inslot {p : Path} {L : List Byte → Prop} {pw data : List Byte} {d : DataHeader} {m : HMode} {f : FileHandler}
    {r : Bytes} (h : Sealed hs w p L pw data d m f r) :
    InSlot hs (.file (d.contents.bytes ++ r.data)) (.box (boxOf hs d.contents m L r.data)) := .box h.filed

/-- the common end, if nothing but the size of the disk is in the way -/
theorem finish_ok {en : Nat → Env} (hl : Linked hs F v w) {p : Path} {L : List Byte → Prop} {pw : List Byte} {fr : Bool}
    (hp : v.phase = .opened p L pw fr) (h4 : ∀ i, ((en 4).rand i).good = true) {data : Bytes}
    (hd : data.data.length < 2 ^ 31) {c : List Byte} (hf : w.fs p = .file c) (hr : (en 6).canRead p = true)
    (hw : (en 6).canWrite p = true) :
    ∃ b : Box, b.accepts = L ∧ b.shows pw = data.data ∧ InSlot hs (.file b.raw) (.box b) ∧ b.raw.length < 2 ^ 31 + 200000 ∧
      finish hs rest en w ⟨some 1, some data⟩ =
        (.ok (.plain (.success ())), w.fs.set p (.file (b.raw.take (en 6).stored))) := by
  obtain ⟨r1, w1, r2, w2, d, m, f, r, c1, c2, hfs, hx⟩ := sealed_after (rest := rest) (e5 := en 5) hl hp h4 hd
  have hfp := hx.fpath
  subst hfp
  have f1 : w1.fs = w.fs := same_disk c1 fun q hq => hq
  have c3 := writeToSelected_ok (e := en 6) hx.ok hx.dh hx.enc hx.bytes hx.sel hx.path (by rw [hfs]; exact hf) hr hw
  refine ⟨boxOf hs d.contents m L r.data, rfl, hx.shows, sealed_inslot hx, ?_, ?_⟩
  · have h1 := HeaderOk.length_le hx.ok
    have h2 := hx.small
    have h3 : r.data.length = data.data.length := by rw [hx.out, cryptOut_length]
    show (d.contents.bytes ++ r.data).length < _
    have h4 : d.contents.bytes.length = d.contents.length := contents_lengths hx.ok.inv hx.ok.complete
    rw [List.length_append]
    omega
  unfold finish
  rw [next_ok c1]
  simp only
  rw [next_ok c2]
  simp only
  rw [next_ok (call_write hx.state c3)]
  simp only [hfs]
  rfl

/-- a save reported by the common end, whatever the outside did -/
theorem finish_saved {en : Nat → Env} (hl : Linked hs F v w) {p : Path} {L : List Byte → Prop} {pw : List Byte} {fr : Bool}
    (hp : v.phase = .opened p L pw fr) (h4 : ∀ i, ((en 4).rand i).good = true) {data : Bytes}
    (hd : data.data.length < 2 ^ 31) {res : Res Ret} {fs' : FS} (hw : ∀ f, w.api.selected = some f → f.path = p)
    (h : finish hs rest en w ⟨some 1, some data⟩ = (res, fs')) (hs' : Saved res) :
    ∃ b : Box, b.accepts = L ∧ b.shows pw = data.data ∧ InSlot hs (.file b.raw) (.box b) ∧
      fs' = w.fs.set p (.file (b.raw.take (en 6).stored)) := by
  obtain ⟨r1, w1, r2, w2, d, m, f, r, c1, c2, hfs, hx⟩ := sealed_after (rest := rest) (e5 := en 5) hl hp h4 hd
  rcases finish_cases h hw with ⟨hn, -⟩ | ⟨-, r1', r2', w1', w2', c1', c2', -, b, hb, hfs'⟩
  · exact absurd hs' hn
  rw [c1] at c1'; cases c1'
  rw [c2] at c2'; cases c2'
  refine ⟨boxOf hs d.contents m L r.data, rfl, hx.shows, sealed_inslot hx, ?_⟩
  rw [fullData_eq hx.ok hx.dh hx.enc hx.bytes] at hb
  cases hb
  exact hfs'

/-- the store in which only one file counts -/
def oneSlot (sl : Slot) : Vault := ⟨fun _ => sl, .idle⟩

theorem linked_one {fs : FS} {p : Path} {sl : Slot} (h : InSlot hs (fs p) sl) :
    Linked hs (fun q => q ≠ p) (oneSlot sl) ⟨⟨.INIT, 1, none, Bytes.empty 0, none, none, none⟩, fs⟩ :=
  ⟨rfl, fun q _ hq => by rw [Classical.not_not.mp hq]; exact h, rfl⟩

/-- opening a box -/
theorem opened_box {p : Path} {fs : FS} {b : Box} {pw : List Byte} {e1 e2 : Env} (hp : EncPath p)
    (hb : InSlot hs (fs p) (.box b)) (ha : b.accepts pw)
    (h1 : e1.canRead p = true) (hg : (e1.rand 0).good = true) (h2 : e2.peek = 0 ∨ ∀ j, e2.peek + e2.clk 1 j < 2 ^ 64) :
    ∃ r1 w1 r2 w2, call hs rest e1 ⟨⟨.INIT, 1, none, Bytes.empty 0, none, none, none⟩, fs⟩ (.selectFile p) = .ok (r1, w1) ∧
      call hs rest e2 w1 (.verifyPassword pw 0) = .ok (r2, w2) ∧ w1.fs = fs ∧ w2.fs = fs ∧
      (∃ v2, Linked hs (fun q => q ≠ p) v2 w2 ∧ v2.phase = .verified p pw ∧ v2.slots p = .box b) ∧
      ∀ f, w2.api.selected = some f → f.path = p := by
  obtain ⟨r1, w1, v1, c1, s1, l1, -⟩ := sim_select (rest := rest) (e := e1) (linked_one hb) (p := p) (fun _ h => h rfl)
    (fun _ => h1) hg rfl
  obtain ⟨-, rfl⟩ := s1.at_select rfl hp (by simp [oneSlot])
  obtain ⟨r2, w2, v2, c2, s2, l2, -⟩ := sim_verify (rest := rest) (e := e2) l1 h2 (p := p) rfl pw 0
  obtain ⟨-, rfl⟩ := s2.at_verify rfl (b := b) rfl ha
  have f1 : w1.fs = fs := same_disk c1 fun q hq => hq
  have f2 : w2.fs = w1.fs := same_disk c2 fun q hq => hq
  have g1 := same_file c1 (p := p) (fun q hq => by cases hq; rfl) (fun f hf => by cases hf)
  have g2 := same_file c2 (p := p) (fun q hq => by cases hq) g1
  exact ⟨r1, w1, r2, w2, c1, c2, f1, f2.trans f1, ⟨_, l2, rfl, rfl⟩, g2⟩

/-- selecting the file and giving the password, in an ordinary world -/
theorem verified_or_not {p : Path} {fs : FS} {pw : List Byte} {e1 e2 : Env} (hp : EncPath p) (ht : Tame (fs p))
    (h1 : Ordinary e1) (h2 : Ordinary e2) :
    ∃ r1 w1 r2 w2, call hs rest e1 ⟨⟨.INIT, 1, none, Bytes.empty 0, none, none, none⟩, fs⟩ (.selectFile p) = .ok (r1, w1) ∧
      call hs rest e2 w1 (.verifyPassword pw 0) = .ok (r2, w2) ∧ w1.fs = fs ∧ w2.fs = fs ∧
      (∀ f, w2.api.selected = some f → f.path = p) ∧
      (w2.api.state ≠ .PASSWORD_VERIFIED ∨ ∃ b v2, InSlot hs (fs p) (.box b) ∧ b.accepts pw ∧
        Linked hs (fun q => q ≠ p) v2 w2 ∧ v2.phase = .verified p pw ∧ v2.slots p = .box b) := by
  have key : ∀ {r1 : Ret} {w1 : World} {r2 : Ret} {w2 : World},
      call hs rest e1 ⟨⟨.INIT, 1, none, Bytes.empty 0, none, none, none⟩, fs⟩ (.selectFile p) = .ok (r1, w1) →
      call hs rest e2 w1 (.verifyPassword pw 0) = .ok (r2, w2) →
      w1.fs = fs ∧ w2.fs = fs ∧ ∀ f, w2.api.selected = some f → f.path = p := by
    intro r1 w1 r2 w2 c1 c2
    have f1 : w1.fs = fs := same_disk c1 fun q hq => hq
    have f2 : w2.fs = w1.fs := same_disk c2 fun q hq => hq
    have g1 := same_file c1 (p := p) (fun q hq => by cases hq; rfl) (fun f hf => by cases hf)
    exact ⟨f1, f2.trans f1, same_file c2 (p := p) (fun q hq => by cases hq) g1⟩
  rcases Classical.em (∃ r1, call hs rest e1 ⟨⟨.INIT, 1, none, Bytes.empty 0, none, none, none⟩, fs⟩ (.selectFile p) =
      .ok (r1, ⟨⟨.INIT, 1, none, Bytes.empty 0, none, none, none⟩, fs⟩)) with ⟨r1, c1⟩ | failed
  · have c2 : call hs rest e2 ⟨⟨.INIT, 1, none, Bytes.empty 0, none, none, none⟩, fs⟩ (.verifyPassword pw 0) =
      .ok (.flag wrongState, ⟨⟨.INIT, 1, none, Bytes.empty 0, none, none, none⟩, fs⟩) := rfl
    obtain ⟨k1, k2, k3⟩ := key c1 c2
    exact ⟨r1, _, _, _, c1, c2, k1, k2, k3, .inl (by simp)⟩
  cases hr : e1.canRead p with
  | false =>
    obtain ⟨code, hx⟩ := handler_unread hp ht hr 0
    exact absurd ⟨.flag (.fail code), by simp only [call, selectFile, hx, Res.bind_ok, Res.noexcept_ok]⟩ failed
  | true =>
  rcases tame_cases (hs := hs) ht with hst | ⟨sl, hsl⟩
  · obtain ⟨code, c1⟩ := select_stray (hs := hs) (rest := rest) (w := ⟨⟨.INIT, 1, none, Bytes.empty 0, none, none, none⟩, fs⟩)
      hp rfl hst h1
    exact absurd ⟨_, c1⟩ failed
  obtain ⟨r1, w1, v1, c1, s1, l1, -⟩ := sim_select (rest := rest) (e := e1) (linked_one hsl) (p := p) (fun _ h => h rfl)
    (fun _ => hr) (h1.rand 0) rfl
  by_cases hm : sl = .missing
  · subst hm
    have : v1 = oneSlot .missing := by cases s1 <;> simp_all [oneSlot]
    subst this
    have hst := l1.state
    simp only [oneSlot] at hst
    have c2 : call hs rest e2 w1 (.verifyPassword pw 0) = .ok (.flag wrongState, w1) := by simp only [call, hst]
    obtain ⟨k1, k2, k3⟩ := key c1 c2
    exact ⟨_, _, _, _, c1, c2, k1, k2, k3, .inl (by rw [hst]; decide)⟩
  obtain ⟨-, rfl⟩ := s1.at_select rfl hp (by simpa [oneSlot] using hm)
  obtain ⟨r2, w2, v2, c2, s2, l2, -⟩ := sim_verify (rest := rest) (e := e2) l1 h2.clock (p := p) rfl pw 0
  obtain ⟨k1, k2, k3⟩ := key c1 c2
  refine ⟨_, _, _, _, c1, c2, k1, k2, k3, ?_⟩
  have hst := l2.state
  cases s2 with
  | verify ha hb hc =>
    rename_i p' b'
    cases ha
    have hb' : sl = .box b' := hb
    rw [hb'] at hsl
    exact .inr ⟨b', _, hsl, hc, l2, rfl, hb⟩
  | refused h => exact absurd trivial h
  | lacking h => exact h.elim
  | verifyEmpty _ _ => refine .inl fun h => ?_; simp only [Vault.goto] at hst; rw [h] at hst; simp at hst
  | verifyWrong _ _ _ => refine .inl fun h => ?_; simp only [Vault.goto] at hst; rw [h] at hst; simp at hst
  | verifyLate _ _ h => exact absurd rfl h

theorem wrong_decrypt (h : w.api.state ≠ .PASSWORD_VERIFIED) :
    call hs rest e w .getDecryptedData = .ok (.data (.fail .ERR_API_STATE_INVALID), w) := by
  cases hst : w.api.state <;> simp [call, wrongState, hst] at h ⊢

/-- decrypting, in an ordinary world -/
theorem decrypted_or_not {p : Path} {pw : List Byte} {b : Box} (hl : Linked hs F v w)
    (hp : v.phase = .verified p pw) (hb : v.slots p = .box b) :
    call hs rest e w .getDecryptedData = .ok (.data (.fail .ERR), w) ∨
    ∃ x w' v', call hs rest e w .getDecryptedData = .ok (.data (.success ⟨some 1, some x⟩), w') ∧ x.data = b.shows pw ∧
      Linked hs F v' w' ∧ v'.phase = .opened p b.accepts pw false := by
  have hst := hl.state
  rw [hp] at hst
  by_cases hx : getDecryptedData hs e w = .ok (.fail .ERR, w)
  · exact .inl (by simp only [call, hst, hx, Res.bind_ok])
  obtain ⟨r, w', v', c, s, l, -⟩ := sim_decrypt (rest := rest) (e := e) hl hp fun h enc m b hc hk => by
    by_cases hr : e.canRead p = true
    · exact hc.decrypts hl.mode hk hr
    · exact (hc.unread hl.mode hk (by simpa using hr)).resolve_right hx
  cases s with
  | refused h => rw [hp] at h; exact absurd trivial h
  | lacking h => exact h.elim
  | decrypt ha hb' hr =>
    rw [hp] at ha; cases ha
    rw [hb] at hb'; cases hb'
    exact .inr ⟨_, w', _, c, hr, l, rfl⟩

end Verif.Demo
