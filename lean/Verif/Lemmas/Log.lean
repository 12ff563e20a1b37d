import Verif.Model.Log

/-
Lemmas about the log: it changes nothing, and what it depends on.
-/
namespace Verif
namespace Logged
variable {α β : Type}

theorem bind_res (x : Logged α) (f : α → Logged β) : (x >>= f).res = (x.res >>= fun a => (f a).res) := by
  show (Logged.bind x f).res = Res.bind x.res _
  unfold Logged.bind Res.bind
  cases x.res <;> rfl

theorem pure_res (a : α) : (pure a : Logged α).res = .ok a := rfl
theorem noexcept_res (x : Logged α) : x.noexcept.res = x.res.noexcept := rfl
theorem attempt_res (x : Logged α) (l : Exn → Line) : (x.attempt l).res = x.res.attempt := rfl

end Logged

namespace Log
open Logged

theorem quiet_res {α : Type} (r : Res α) : (quiet r).res = r := rfl
theorem say_res (s : Sev) (is : List Item) : (say s is).res = .ok () := rfl
theorem emit_res (ls : List Line) : (emit ls).res = .ok () := rfl

theorem ok_bind {α β : Type} (a : α) (f : α → Res β) : ((Res.ok a : Res α) >>= f) = f a := rfl
theorem bind_ok {α : Type} (x : Res α) : (x >>= fun a => (Res.ok a : Res α)) = x := by
  show Res.bind x _ = x
  cases x <;> rfl
theorem bind_assoc {α β γ : Type} (x : Res α) (f : α → Res β) (g : β → Res γ) :
    ((x >>= f) >>= g) = (x >>= fun a => f a >>= g) := by
  show Res.bind (Res.bind x f) g = Res.bind x _
  cases x <;> rfl

theorem bind_congr {α β : Type} (x : Res α) {f g : α → Res β} (h : ∀ a, f a = g a) : (x >>= f) = (x >>= g) := by
  rw [show f = g from funext h]

theorem getHash_res (m : HMode) : (getHash m).res = .ok () := rfl

theorem assign_res (c : ChainHash) : (assign c).res = c.assign := by
  simp only [assign, bind_res, quiet_res, emit_res, ok_bind, pure_res, bind_ok]

theorem newChain_res (m : CHMode) (n : Nat) (d : ChainHashData) :
    (newChain m n d).res = (ChainHash.make m (UInt64.ofNat n) (some d)).assign := by
  simp only [newChain, bind_res, emit_res, ok_bind, assign_res]

theorem performStr_res (ch : ChainHash) (H : HashFn) (data : List Byte) (timeout : Nat) (clk : Nat → Nat) :
    (performStr ch H data timeout clk).res = ChainHashModes.performStr ch H data timeout clk := by
  simp only [performStr, performLine, bind_res, quiet_res, emit_res, say_res, ok_bind, pure_res, bind_assoc, bind_ok]
  unfold ChainHashModes.performStr
  cases ch.getMode with
  | ok m => cases ch.getIters <;> rfl
  | exn y => rfl
  | fatal y => rfl

theorem performBytes_res (ch : ChainHash) (H : HashFn) (data : Bytes) (timeout : Nat) (clk : Nat → Nat) :
    (performBytes ch H data timeout clk).res = ChainHashModes.performBytes ch H data timeout clk := by
  simp only [performBytes, performLine, bind_res, quiet_res, emit_res, say_res, ok_bind, pure_res, bind_assoc, bind_ok]
  unfold ChainHashModes.performBytes
  cases ch.getMode with
  | ok m => cases ch.getIters <;> rfl
  | exn y => rfl
  | fatal y => rfl

theorem isComplete_res (d : DataHeader) : (isComplete d).res = .ok d.isComplete := by
  unfold isComplete
  split
  · rename_i h; rw [h]; rfl
  · rename_i h
    rw [Bool.not_eq_true] at h
    rw [h]; rfl

theorem complete_res (d : SettingsIters) : (complete d).res = .ok d.isComplete := by
  unfold complete
  split
  · rename_i h; rw [h]; rfl
  · rename_i h
    rw [Bool.not_eq_true] at h
    rw [h]; rfl

theorem getDataHeaderParts_res (d : DataHeader) : (getDataHeaderParts d).res = d.getDataHeaderParts := by
  unfold getDataHeaderParts DataHeader.getDataHeaderParts
  rw [bind_res, isComplete_res, ok_bind]
  cases d.isComplete <;> rfl

theorem newHeader_res (m : HMode) (r : Rand) : (newHeader m r).res = DataHeader.new m.toByte r := by
  simp only [newHeader, bind_res, quiet_res, say_res, getHash_res, ok_bind]

theorem setFileDataMode_res (d : DataHeader) (m : Byte) : (setFileDataMode d m).res = d.setFileDataMode m := by
  simp only [setFileDataMode, bind_res, quiet_res, say_res, ok_bind]

theorem setChainHash1_res (d : DataHeader) (c : ChainHash) : (setChainHash1 d c).res = d.setChainHash1 c := by
  unfold setChainHash1 DataHeader.setChainHash1
  rw [bind_res, say_res, ok_bind]
  cases c.val
  · rfl
  · simp only [Bool.not_true, Bool.false_eq_true, if_false, bind_res, assign_res, pure_res]

theorem setChainHash2_res (d : DataHeader) (c : ChainHash) : (setChainHash2 d c).res = d.setChainHash2 c := by
  unfold setChainHash2 DataHeader.setChainHash2
  rw [bind_res, say_res, ok_bind]
  cases c.val
  · rfl
  · simp only [Bool.not_true, Bool.false_eq_true, if_false, bind_res, assign_res, pure_res]

theorem setValidPasswordHashBytes_res (d : DataHeader) (b : Bytes) :
    (setValidPasswordHashBytes d b).res = d.setValidPasswordHashBytes b := by
  simp only [setValidPasswordHashBytes, bind_res, quiet_res, say_res, ok_bind]

theorem setEncSalt_res (d : DataHeader) (b : Bytes) : (setEncSalt d b).res = d.setEncSalt b := by
  simp only [setEncSalt, bind_res, quiet_res, say_res, ok_bind]

theorem addBlocks_res (bs : List DataBlock) (d : DataHeader) : (addBlocks bs d).res = DataHeader.addBlocks bs d := by
  simp only [addBlocks, bind_res, quiet_res, emit_res, ok_bind]

theorem addEncBlocks_res (bs : List EncDataBlock) (d : DataHeader) : (addEncBlocks bs d).res = DataHeader.addEncBlocks bs d := by
  simp only [addEncBlocks, bind_res, quiet_res, emit_res, ok_bind]

theorem setHeaderParts_res (p : DataHeaderParts) (r : Rand) : (setHeaderParts p r).res = DataHeader.setHeaderParts p r := by
  unfold setHeaderParts DataHeader.setHeaderParts
  rw [noexcept_res, bind_res, attempt_res]
  congr 1
  simp only [setHeaderTry, bind_res, quiet_res, newHeader_res, setFileDataMode_res, setChainHash1_res, setChainHash2_res,
    setValidPasswordHashBytes_res, setEncSalt_res, addBlocks_res, addEncBlocks_res]
  generalize hx : (DataHeaderParts.get p.hashMode >>= fun a => DataHeader.new a.toByte r >>= fun a =>
    DataHeaderParts.get p.fileMode >>= fun a_1 => a.setFileDataMode a_1 >>= fun a => a.setChainHash1 p.ch1 >>= fun a =>
    a.setChainHash2 p.ch2 >>= fun a => DataHeaderParts.get p.validator >>= fun a_2 => a.setValidPasswordHashBytes a_2 >>= fun a =>
    DataHeaderParts.get p.encSalt >>= fun a_3 => a.setEncSalt a_3 >>= fun a => DataHeader.addBlocks p.dec a >>= fun a =>
    DataHeader.addEncBlocks p.enc a) = x
  have key : ∀ (x : Res DataHeader), (x.attempt >>= fun o => (match o with
      | some d => (pure (.success d) : Logged (Out DataHeader))
      | none => pure (.fail .ERR)).res) = Res.catchStd (x >>= fun d => .ok (.success d)) fun _ => .ok (.fail .ERR) := by
    intro x
    cases x with
    | ok a => rfl
    | exn y => cases y <;> rfl
    | fatal f => rfl
  have h2 := key x
  rw [← hx] at h2
  simp only [bind_assoc] at h2
  rw [← hx]
  exact h2

theorem makeChains_res (ds : SettingsIters) (e : Env) : (makeChains ds e).res = Api.makeChains ds e := by
  unfold makeChains Api.makeChains
  simp only [bind_res, quiet_res, newChain_res, bind_assoc]
  refine bind_congr _ fun a => bind_congr _ fun m1 => bind_congr _ fun b => bind_congr _ fun m2 => bind_congr _ fun d1 =>
    bind_congr _ fun d2 => bind_congr _ fun n1 => bind_congr _ fun c1 => bind_congr _ fun n2 => bind_congr _ fun c2 =>
    bind_congr _ fun x => bind_congr _ fun y => ?_
  split <;> rfl

theorem lastSteps_res (hs : Hashes) (e : Env) (p : DataHeaderParts) (m : HMode) (h1 v : Bytes) :
    (lastSteps hs e p m h1 v).res = (do
      let p ← p.setValidPasswordHash v
      let salt ← (Bytes.empty (hs.get m).size).fillrandom (e.rand 2)
      let p ← p.setEncSalt salt
      let o ← DataHeader.setHeaderParts p (e.rand 3)
      .ok ⟨o, h1⟩) := by
  simp only [lastSteps, bind_res, quiet_res, setHeaderParts_res, pure_res]

theorem makeHeader_res (hs : Hashes) (pw : List Byte) (ds : SettingsIters) (timeout : Nat) (e : Env) (c1 c2 : ChainHash) :
    (makeHeader hs pw ds timeout e c1 c2).res = Api.makeHeader hs pw ds timeout e c1 c2 := by
  unfold makeHeader Api.makeHeader
  simp only [bind_res, quiet_res, getHash_res, ok_bind, performStr_res]
  congr 1; funext f; congr 1; funext p; congr 1; funext h; congr 1; funext p; congr 1; funext m; congr 1; funext o
  cases o with
  | fail c => rfl
  | timeout => rfl
  | success h1 =>
    simp only []
    split
    · rfl
    · rw [bind_res, performBytes_res]
      congr 1; funext o
      cases o with
      | fail c => rfl
      | timeout => rfl
      | success v => exact lastSteps_res hs e p m h1 v

theorem createDataHeaderIters_res (hs : Hashes) (mode : Byte) (pw : List Byte) (ds : SettingsIters) (timeout : Nat) (e : Env) :
    (createDataHeaderIters hs mode pw ds timeout e).res = Api.createDataHeaderIters hs mode pw ds timeout e := by
  unfold createDataHeaderIters Api.createDataHeaderIters
  rw [noexcept_res, bind_res, complete_res, ok_bind]
  congr 1
  split
  · rfl
  · simp only [bind_res, say_res, quiet_res, ok_bind]
    congr 1; funext f
    split
    · rfl
    · rw [bind_res, attempt_res, makeChains_res]
      congr 1; funext o
      cases o with
      | none => rfl
      | some c => exact makeHeader_res hs pw ds timeout e c.1 c.2

theorem createForEmpty_res (hs : Hashes) (s : Session) (pw : List Byte) (ds : SettingsIters) (timeout : Nat) (e : Env) :
    (createForEmpty hs s pw ds timeout e).res =
      (Api.createDataHeaderIters hs s.fileMode pw ds timeout e >>= Api.headerForEmpty s) := by
  simp only [createForEmpty, bind_res, quiet_res, emit_res, ok_bind, pure_res, bind_ok, createDataHeaderIters_res]

theorem createForOpen_res (hs : Hashes) (s : Session) (pw : List Byte) (ds : SettingsIters) (timeout : Nat) (e : Env) :
    (createForOpen hs s pw ds timeout e).res =
      (Api.createDataHeaderIters hs s.fileMode pw ds timeout e >>= Api.headerForOpen s) := by
  simp only [createForOpen, bind_res, quiet_res, emit_res, say_res, ok_bind, createDataHeaderIters_res]

theorem verifyTry_res (hs : Hashes) (e : Env) (s : Session) (pw : List Byte) (timeout : Nat) :
    (verifyTry hs e s pw timeout).res = Api.verifyTry hs e s pw timeout := by
  unfold verifyTry Api.verifyTry
  simp only [bind_res, quiet_res, getHash_res, ok_bind, getDataHeaderParts_res, performStr_res]
  congr 1; funext d; congr 1; funext p; congr 1; funext m; congr 1; funext o
  cases o with
  | fail c => rfl
  | timeout => rfl
  | success h1 =>
    simp only []
    split
    · rfl
    · rw [bind_res, performBytes_res]
      congr 1; funext o
      cases o with
      | fail c => rfl
      | timeout => rfl
      | success v =>
        simp only [bind_res, quiet_res]
        congr 1; funext v'
        split <;> rfl

theorem verifyPassword_res (hs : Hashes) (e : Env) (s : Session) (pw : List Byte) (timeout : Nat) :
    (verifyPassword hs e s pw timeout).res = Api.verifyPassword hs e s pw timeout := by
  unfold verifyPassword Api.verifyPassword
  rw [noexcept_res, bind_res, say_res, ok_bind, bind_res, attempt_res, verifyTry_res]
  congr 2; funext o
  cases o <;> rfl

theorem newChain'_res (dir : Dir) (H : HashFn) (a b : Bytes) : (newChain' dir H a b).res = Chain.new H a b := by
  simp only [newChain', bind_res, quiet_res, emit_res, ok_bind]

theorem addData_res (dir : Dir) (H : HashFn) (c : Chain) (data : Bytes) : (addData dir H c data).res = c.addData dir H data := by
  simp only [addData, bind_res, quiet_res, say_res, ok_bind, pure_res, bind_ok]

theorem addStream_res (dir : Dir) (H : HashFn) (c : Chain) (s : IStream) (len : Nat) :
    (addStream dir H c s len).res = c.addStream dir H s len := by
  simp only [addStream, bind_res, quiet_res, say_res, emit_res, ok_bind, pure_res, bind_ok]

theorem getResult_res (dir : Dir) (H : HashFn) (c : Chain) : (getResult dir H c).res = c.getResult dir H := by
  simp only [getResult, bind_res, quiet_res, say_res, ok_bind]

theorem decryptTry_res (hs : Hashes) (e : Env) (w : World) : (decryptTry hs e w).res = Api.decryptTry hs e w := by
  unfold decryptTry Api.decryptTry
  simp only [bind_res, quiet_res, getHash_res, emit_res, ok_bind, pure_res, getDataHeaderParts_res, newChain'_res, addStream_res,
    getResult_res]

theorem getDecryptedData_res (hs : Hashes) (e : Env) (w : World) : (getDecryptedData hs e w).res = Api.getDecryptedData hs e w := by
  unfold getDecryptedData Api.getDecryptedData
  rw [noexcept_res, bind_res, say_res, ok_bind, bind_res, attempt_res, decryptTry_res]
  congr 2; funext o
  cases o <;> rfl

theorem encryptWith_res (hs : Hashes) (s : Session) (d : DataHeader) (data : Bytes) :
    (encryptWith hs s d data).res = Api.encryptWith hs s d data := by
  unfold encryptWith Api.encryptWith
  simp only [bind_res, quiet_res, getHash_res, emit_res, ok_bind, pure_res, getDataHeaderParts_res, newChain'_res, addData_res,
    getResult_res]

theorem setDataSize_res (d : DataHeader) (n : UInt32) : (setDataSize d n).res = d.setDataSize n := by
  simp only [setDataSize, bind_res, say_res, ok_bind, isComplete_res]
  cases d.isComplete <;> rfl

theorem encryptTry_res (hs : Hashes) (e : Env) (s : Session) (d : DataHeader) (data : Bytes) :
    (encryptTry hs e s d data).res = (Api.encryptTry hs e s d data).1 := by
  unfold encryptTry Api.encryptTry
  simp only [bind_res, setDataSize_res, calcHeaderBytes, say_res, emit_res, quiet_res, ok_bind, encryptWith_res]
  cases d.setDataSize (UInt32.ofNat data.len) with
  | exn y => rfl
  | fatal y => rfl
  | ok d1 =>
    simp only [ok_bind]
    generalize d1.calcHeaderBytes hs (Bytes.empty 0) (e.clk 0) = q
    obtain ⟨r, d2⟩ := q
    cases r <;> rfl

theorem encryptData_res (hs : Hashes) (e : Env) (s : Session) (fd : Option FileDataStruct) :
    (encryptData hs e s fd).res = Api.encryptData hs e s fd := by
  unfold encryptData Api.encryptData
  rw [noexcept_res]
  congr 1
  simp only [bind_res, quiet_res, say_res, ok_bind]
  congr 1; funext fd
  split
  · rfl
  · simp only [bind_res, quiet_res]
    congr 1; funext f
    split
    · rfl
    · simp only [bind_res, quiet_res, attempt_res, encryptTry_res]
      congr 1; funext d; congr 1; funext data; congr 1; funext o
      cases o <;> rfl

theorem changeSalt_res (e : Env) (s : Session) : (changeSalt e s).res = Api.changeSalt e s := by
  unfold changeSalt Api.changeSalt
  rw [noexcept_res]
  congr 1
  simp only [bind_res, quiet_res, say_res, ok_bind, getDataHeaderParts_res, setHeaderParts_res]
  congr 1; funext d; congr 1; funext p; congr 1; funext old; congr 1; funext b; congr 1; funext p; congr 1; funext o
  cases o <;> rfl

/-- a run that starts with a step whose exceptions kill the process -/
theorem first_noexcept {α β : Type} (x : Res α) (f : α → Res β) :
    (x.noexcept >>= fun _ => (x >>= f).noexcept) = (x >>= f).noexcept := by
  cases x <;> rfl

theorem writeToSelected_res (fl : FileLog) (e : Env) (w : World) : (writeToSelected fl e w).res = Api.writeToSelected e w := by
  simp only [writeToSelected, bind_res, quiet_res, say_res, emit_res, ok_bind, pure_res, bind_ok]
  exact first_noexcept _ _

theorem writeToPath_res (fl : FileLog) (e : Env) (w : World) (p : Path) : (writeToPath fl e w p).res = Api.writeToPath e w p := by
  simp only [writeToPath, bind_res, quiet_res, say_res, emit_res, ok_bind, pure_res, bind_ok]

theorem selectFile_res (fl : FileLog) (hs : Hashes) (e : Env) (w : World) (p : Path) :
    (selectFile fl hs e w p).res = Api.selectFile hs e w p := by
  simp only [selectFile, bind_res, quiet_res, say_res, emit_res, ok_bind, pure_res, bind_ok]

theorem deleteFile_res (e : Env) (w : World) : (deleteFile e w).res = Api.deleteSelected e w := by
  simp only [deleteFile, bind_res, quiet_res, say_res, emit_res, ok_bind, pure_res, bind_ok]
  exact first_noexcept _ _

theorem getFileContent_res (fl : FileLog) (e : Env) (w : World) : (getFileContent fl e w).res = Api.getFileContent e w := by
  simp only [getFileContent, bind_res, quiet_res, emit_res, ok_bind, pure_res, bind_ok]
  exact first_noexcept _ _

/-- The calls with their log return and change what the calls of the model return and change. -/
theorem call_res (fl : FileLog) (hs : Hashes) (rest : Api.Helper → Res Api.Helper) (e : Env) (w : World) (c : Call) :
    (call fl hs rest e w c).res = Api.call hs rest e w c := by
  cases c with
  | createDataHeader pw ds t =>
    simp only [call, Api.call, bind_res, complete_res, ok_bind]
    split
    · rfl
    · rw [bind_res, say_res, ok_bind]
      cases w.api.state <;> first
        | rfl
        | simp only [bind_res, createForEmpty_res, createForOpen_res, pure_res, bind_assoc]
  | createDataHeaderTime pw ds => simp only [call, bind_res, emit_res, ok_bind, quiet_res]
  | isFileEmpty => simp only [call, bind_res, say_res, ok_bind, quiet_res]
  | logout => rfl
  | logoutMode m => rfl
  | _ =>
    simp only [call, Api.call, bind_res, say_res, ok_bind]
    cases w.api.state <;> first
      | rfl
      | simp only [bind_res, pure_res, selectFile_res, deleteFile_res, getFileContent_res,
          verifyPassword_res, changeSalt_res, getDecryptedData_res, encryptData_res, writeToSelected_res, writeToPath_res]

theorem run_res (fl : FileLog) (hs : Hashes) (rest : Api.Helper → Res Api.Helper) (evs : List Event) (w : World) :
    (run fl hs rest w evs).res = Api.run hs rest w evs := by
  induction evs generalizing w with
  | nil => rfl
  | cons ev evs ih =>
    cases ev with
    | call c e =>
      simp only [run, Api.run, Api.step, bind_res, call_res, ih, pure_res, bind_assoc, ok_bind]
    | outside p n =>
      simp only [run, Api.run, Api.step, bind_res, ih, pure_res, ok_bind]

end Log
end Verif
