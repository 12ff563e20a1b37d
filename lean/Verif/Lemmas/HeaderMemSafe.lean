import Verif.Lemmas.HeaderMemFwd
import Verif.Lemmas.HeaderFlaw

/- What can come out of the memory parser. -/
namespace Verif
open Spec

/-- a computation that delivers values with `Q`, throws only standard exceptions and ends the process only by a failed assertion -/
def TameR {α : Type} (Q : α → Prop) : Res α → Prop
  | .ok a => Q a
  | .exn e => e ≠ .pointer
  | .fatal f => f = .abort

namespace TameR
variable {α β : Type}

theorem bind {P : α → Prop} {Q : β → Prop} {x : Res α} {f : α → Res β} (hx : TameR P x) (hf : ∀ a, P a → TameR Q (f a)) :
    TameR Q (x >>= f) := by
  cases x with
  | ok a => exact hf a hx
  | exn e => exact hx
  | fatal e => exact hx

theorem mono {P Q : α → Prop} {x : Res α} (hx : TameR P x) (h : ∀ a, P a → Q a) : TameR Q x := by
  cases x with
  | ok a => exact h a hx
  | exn e => exact hx
  | fatal e => exact hx

theorem assert (b : Bool) : TameR (fun _ => True) (Res.assert b) := by
  cases b
  · exact (rfl : Fatal.abort = .abort)
  · exact trivial

theorem addByte (b : Bytes) (x : Byte) : TameR (fun _ => True) (b.addByte x) := by
  unfold Bytes.addByte; split <;> simp [TameR]

theorem addcopy (a b : Bytes) : TameR (fun _ => True) (a.addcopyToBytes b) := by
  unfold Bytes.addcopyToBytes; split <;> simp [TameR]

theorem fromLong (n : UInt64) : TameR (fun _ => True) (Bytes.fromLong n true) := by
  rw [fromLong_true]; trivial

theorem get (o : Option α) : TameR (fun _ => True) (DataHeaderParts.get o) := by
  cases o <;> simp [DataHeaderParts.get, TameR]

end TameR

/-- a chain hash that is valid has data -/
def HasData (c : ChainHash) : Prop := c.val = true → ∃ x, c.data = some x

/-- chain hashes of a header that are valid have data -/
def Sound (d : DataHeader) : Prop := HasData d.dh.ch1 ∧ HasData d.dh.ch2

theorem HasData.make (m : CHMode) (n : UInt64) (d : Option ChainHashData) : HasData (ChainHash.make m n d) := by
  intro h
  cases d with
  | none => simp [ChainHash.make, chainHashValid] at h
  | some d => exact ⟨d, rfl⟩

theorem HasData.getData {c : ChainHash} (h : HasData c) : TameR (fun _ => True) c.getData := by
  unfold ChainHash.getData
  split
  · simp [TameR]
  · rename_i hv
    obtain ⟨x, hx⟩ := h (by simpa using hv)
    rw [hx]; trivial

theorem getMode_tame (c : ChainHash) : TameR (fun _ => True) c.getMode := by
  unfold ChainHash.getMode
  split
  · simp [TameR]
  · split <;> simp [TameR]

theorem getIters_tame (c : ChainHash) : TameR (fun _ => True) c.getIters := by
  unfold ChainHash.getIters
  split <;> simp [TameR]

theorem assign_tame (c : ChainHash) : TameR HasData c.assign :=
  (getMode_tame c).bind fun m _ => (getIters_tame c).bind fun i _ => HasData.make m i c.data

namespace DataHeader

theorem length_tame {d : DataHeader} (h : Sound d) : TameR (fun _ => True) d.getHeaderLength := by
  unfold getHeaderLength
  split
  · rename_i hv
    rw [Bool.and_eq_true] at hv
    obtain ⟨a, ha⟩ := h.1 hv.1
    obtain ⟨b, hb⟩ := h.2 hv.2
    have e1 : d.dh.ch1.getData = .ok a := by simp [ChainHash.getData, hv.1, ha]
    have e2 : d.dh.ch2.getData = .ok b := by simp [ChainHash.getData, hv.2, hb]
    rw [e1, e2]; trivial
  · split <;> trivial

theorem setChainHash1_tame {d : DataHeader} (h : Sound d) (c : ChainHash) : TameR Sound (d.setChainHash1 c) := by
  unfold setChainHash1
  split
  · simp [TameR]
  · exact (assign_tame c).bind fun c' hc => ⟨hc, h.2⟩

theorem setChainHash2_tame {d : DataHeader} (h : Sound d) (c : ChainHash) : TameR Sound (d.setChainHash2 c) := by
  unfold setChainHash2
  split
  · simp [TameR]
  · exact (assign_tame c).bind fun c' hc => ⟨h.1, hc⟩

theorem setValidator_tame {d : DataHeader} (h : Sound d) (b : Bytes) : TameR Sound (d.setValidPasswordHashBytes b) := by
  unfold setValidPasswordHashBytes DataHeaderParts.setValidPasswordHash
  refine TameR.bind (P := fun p : DataHeaderParts => HasData p.ch1 ∧ HasData p.ch2) ?_ fun p hp => (show Sound _ from hp)
  refine TameR.bind (P := fun _ => True) ?_ fun n _ => ?_
  · exact (TameR.get _).bind fun m _ => trivial
  · split
    · exact h
    · simp [TameR]

theorem setEncSalt_tame {d : DataHeader} (h : Sound d) (b : Bytes) : TameR Sound (d.setEncSalt b) := by
  unfold setEncSalt DataHeaderParts.setEncSalt
  refine TameR.bind (P := fun p : DataHeaderParts => HasData p.ch1 ∧ HasData p.ch2) ?_ fun p hp => (show Sound _ from hp)
  refine TameR.bind (P := fun _ => True) ?_ fun n _ => ?_
  · exact (TameR.get _).bind fun m _ => trivial
  · split
    · exact h
    · simp [TameR]

theorem setFileSize_tame {d : DataHeader} (h : Sound d) (n : UInt64) : TameR Sound (d.setFileSize n) := by
  unfold setFileSize
  split
  · simp [TameR]
  · refine (length_tame h).bind fun l _ => ?_
    split
    · simp [TameR]
    · exact h

theorem addDataBlock_tame {d : DataHeader} (h : Sound d) (t : Byte) (b : Bytes) :
    TameR Sound (do d.addDataBlock (← DataBlock.make t b)) := by
  refine TameR.bind (P := fun _ => True) ?_ fun x _ => ?_
  · unfold DataBlock.make DataBlock.setData; split <;> simp [TameR]
  · unfold addDataBlock
    split
    · simp [TameR]
    · exact h

theorem addEncDataBlock_tame {d : DataHeader} (h : Sound d) (t : Byte) (b : Bytes) (n : Byte) :
    TameR Sound (do d.addEncDataBlock (← EncDataBlock.createEncBlock t b n)) := by
  refine TameR.bind (P := fun _ => True) ?_ fun x _ => ?_
  · unfold EncDataBlock.createEncBlock DataBlock.setData
    split
    · simp [TameR]
    · refine TameR.bind (P := fun _ => True) ?_ fun x _ => trivial
      split <;> simp [TameR]
  · unfold addEncDataBlock
    split
    · simp [TameR]
    · exact h

theorem writeBlocks_tame (bs : List DataBlock) : ∀ b, TameR (fun _ => True) (writeBlocks bs b) := by
  induction bs with
  | nil => intro b; trivial
  | cons x xs ih =>
    intro b
    exact (TameR.addByte _ _).bind fun _ _ => (TameR.addByte _ _).bind fun _ _ => (TameR.addcopy _ _).bind fun _ _ => ih _

theorem writeEncBlocks_tame (bs : List EncDataBlock) : ∀ b, TameR (fun _ => True) (writeEncBlocks bs b) := by
  induction bs with
  | nil => intro b; trivial
  | cons x xs ih =>
    intro b
    exact (TameR.addByte _ _).bind fun _ _ => (TameR.addByte _ _).bind fun _ _ => (TameR.addcopy _ _).bind fun _ _ => ih _

theorem getDataBlock_tame (c : ChainHashData) : TameR (fun _ => True) c.getDataBlock := by
  unfold ChainHashData.getDataBlock; split <;> simp [TameR]

theorem writeChainHash_tame {c : ChainHash} (h : HasData c) (b : Bytes) : TameR (fun _ => True) (writeChainHash c b) :=
  (getMode_tame c).bind fun _ _ => (TameR.addByte _ _).bind fun _ _ => (getIters_tame c).bind fun _ _ =>
    (TameR.fromLong _).bind fun _ _ => (TameR.addcopy _ _).bind fun _ _ => h.getData.bind fun _ _ =>
      (TameR.addByte _ _).bind fun _ _ => h.getData.bind fun _ _ => (getDataBlock_tame _).bind fun _ _ => TameR.addcopy _ _

theorem writeAll_tame {d : DataHeader} (h : Sound d) (n : UInt64) (len : Nat) : TameR (fun _ => True) (d.writeAll n len) :=
  (TameR.fromLong _).bind fun _ _ => (TameR.addcopy _ _).bind fun _ _ =>
    (TameR.fromLong _).bind fun _ _ => (TameR.addcopy _ _).bind fun _ _ =>
      (TameR.get _).bind fun _ _ => (TameR.addByte _ _).bind fun _ _ =>
        (TameR.get _).bind fun _ _ => (TameR.addByte _ _).bind fun _ _ =>
          (TameR.addByte _ _).bind fun _ _ => (writeBlocks_tame _ _).bind fun _ _ =>
            (writeChainHash_tame h.1 _).bind fun _ _ => (writeChainHash_tame h.2 _).bind fun _ _ =>
              (TameR.get _).bind fun _ _ => (TameR.addcopy _ _).bind fun _ _ =>
                (TameR.get _).bind fun _ _ => (TameR.addcopy _ _).bind fun _ _ =>
                  (TameR.addByte _ _).bind fun _ _ => writeEncBlocks_tame _ _

theorem calcBytes_tame {d : DataHeader} (h : Sound d) : TameR (fun _ => True) d.calcBytes := by
  unfold calcBytes
  refine (length_tame h).bind fun len _ => ?_
  split
  · simp [TameR]
  · rename_i n _
    have := writeAll_tame h n len
    cases hw : d.writeAll n len with
    | ok b => simp only [Res.bind_ok]; split <;> simp [TameR]
    | exn e => rw [hw] at this; cases e <;> first | exact absurd rfl this | simp [TameR]
    | fatal e => rw [hw] at this; exact this

theorem calcHeaderBytes_tame {d : DataHeader} (h : Sound d) (hs : Hashes) (clk : Nat → Nat) :
    TameR Sound (d.calcHeaderBytes! hs (Bytes.empty 0) clk) := by
  refine TameR.bind (P := fun _ => True) ?_ fun _ _ => ?_
  rotate_left
  · show Sound (d.calcHeaderBytes hs (Bytes.empty 0) clk).2
    unfold calcHeaderBytes
    split
    · split <;> exact h
    · exact h
    · exact h
  have hc : TameR (fun _ => True) (do d.calcChecks; d.calcVerify hs (Bytes.empty 0) clk) := by
    refine TameR.bind (P := fun _ => True) ?_ fun _ _ => trivial
    unfold calcChecks
    split
    · simp [TameR]
    · split
      · simp [TameR]
      · refine (length_tame h).bind fun l _ => ?_
        split <;> simp [TameR]
  unfold calcHeaderBytes
  split
  · have := calcBytes_tame (d := d.clear) h
    split
    · trivial
    · rename_i e he; rw [he] at this; exact this
    · rename_i e he; rw [he] at this; exact this
  · rename_i e he; rw [he] at hc; exact hc
  · rename_i e he; rw [he] at hc; exact hc

end DataHeader

namespace HeaderParse
variable {file : Bytes} {α β : Type}

/-- a run that delivers values with `Q`, stops with errors from `S`, throws only standard exceptions and ends the process only
by a failed assertion -/
def Tame (S : ErrorCode → Prop) (Q : α → Prop) : Res (Step Nat α) → Prop
  | .ok (.val a _) => Q a
  | .ok (.stop c) => S c
  | .exn e => e ≠ .pointer
  | .fatal f => f = .abort

namespace Tame
variable {S : ErrorCode → Prop}

theorem bind {P : α → Prop} {Q : β → Prop} {p : Par Nat α} {f : α → Par Nat β} {i : Nat} (hp : Tame S P (p i))
    (hf : ∀ a j, P a → Tame S Q (f a j)) : Tame S Q ((p >>= f) i) := by
  rw [Par.bind_apply]
  cases h : p i with
  | ok x =>
    rw [h] at hp
    cases x with
    | val a j => exact hf a j hp
    | stop c => exact hp
  | exn e => rw [h] at hp; exact hp
  | fatal e => rw [h] at hp; exact hp

theorem lift {Q : α → Prop} {x : Res α} (i : Nat) (h : TameR Q x) : Tame S Q ((Par.lift x : Par Nat α) i) := by
  unfold Par.lift
  cases x with
  | ok a => exact h
  | exn e => exact h
  | fatal e => exact h

theorem onExn {Q : α → Prop} {p : Par Nat α} {c : Exn → Option ErrorCode} {i : Nat} (h : Tame S Q (p i))
    (hc : ∀ e k, c e = some k → S k) : Tame S Q (Par.onExn p c i) := by
  unfold Par.onExn
  cases hp : p i with
  | ok x => rw [hp] at h; exact h
  | exn e =>
    rw [hp] at h
    simp only
    cases he : c e with
    | none => exact h
    | some k => exact hc e k he
  | fatal e => rw [hp] at h; exact h

theorem cp (n i : Nat) : Tame S (fun l => l.length = n) (cp file n i) := by
  cases h : HeaderParse.cp file n i with
  | ok x =>
    cases x with
    | val a j => exact (cp_val h).1
    | stop c =>
      unfold HeaderParse.cp at h
      split at h <;> cases h
  | exn e =>
    unfold HeaderParse.cp Bytes.copySubBytes at h
    split at h
    · cases h
    · rename_i h'
      split at h'
      · cases h'; cases h; simp [Tame]
      · split at h' <;> cases h'
        cases h; simp [Tame]
    · cases h
  | fatal e =>
    unfold HeaderParse.cp Bytes.copySubBytes at h
    split at h
    · cases h
    · cases h
    · rename_i h'
      split at h'
      · cases h'
      · split at h' <;> cases h'

theorem cpByte (i : Nat) : Tame S (fun _ => True) (cpByte file i) := by
  unfold HeaderParse.cpByte
  refine (cp 1 i).bind fun a j ha => ?_
  cases a with
  | nil => cases ha
  | cons x xs => trivial

theorem cpLong (i : Nat) : Tame S (fun _ => True) (cpLong file i) := by
  unfold HeaderParse.cpLong
  refine (cp 8 i).bind fun a j ha => lift j ?_
  rw [toLong_eq _ (by simp; omega)]
  trivial

theorem cpStar (dblen n i : Nat) : Tame S (fun _ => True) (cpStar file dblen n i) := by
  unfold HeaderParse.cpStar Bytes.copySubBytes
  simp only
  split
  · trivial
  · rename_i h'
    split at h'
    · cases h'; simp [Tame]
    · split at h' <;> cases h'
      simp [Tame]
  · rename_i h'
    split at h'
    · cases h'
    · split at h' <;> cases h'

theorem mono {S' : ErrorCode → Prop} {P Q : α → Prop} {x : Res (Step Nat α)} (h : Tame S P x) (hS : ∀ c, S c → S' c)
    (hQ : ∀ a, P a → Q a) : Tame S' Q x := by
  cases x with
  | ok x =>
    cases x with
    | val a j => exact hQ a h
    | stop c => exact hS c h
  | exn e => exact h
  | fatal e => exact h

end Tame

/-- the parts still to come fit the ones already there -/
def Due (c : ChainHashData) (rest : List NameLen) : Prop := c.mode.nameLens.drop c.ind = rest ∧ c.ind ≤ c.mode.nameLens.length

theorem nameLens_small (m : CHMode) : m.nameLens.length ≤ 4 := by cases m <;> decide

theorem addBytes_tame {c : ChainHashData} {nl : NameLen} {rest : List NameLen} (h : Due c (nl :: rest)) (b : Bytes) :
    TameR (fun c' => Due c' rest) (c.addBytes b) := by
  obtain ⟨h1, h2⟩ := h
  have hlt : c.ind < c.mode.nameLens.length := by
    refine Nat.lt_of_le_of_ne h2 fun he => ?_
    rw [he, List.drop_length] at h1
    cases h1
  have hs := nameLens_small c.mode
  have hg : c.mode.nameLens[c.ind]? = some nl := by
    rw [List.getElem?_eq_getElem hlt]
    rw [List.drop_eq_getElem_cons hlt] at h1
    injection h1 with h1 _
    rw [h1]
  have hr : c.mode.nameLens.drop (c.ind + 1) = rest := by
    rw [List.drop_eq_getElem_cons hlt] at h1
    injection h1
  unfold ChainHashData.addBytes
  split
  · simp [TameR]
  · rw [hg]
    simp only
    split
    · simp [TameR]
    · unfold Bytes.addcopyToBytes
      split
      · rename_i h'
        exact (TameR.assert _).bind fun _ _ => by simp [TameR]
      · rename_i e _ h'
        split at h' <;> cases h'
        simp [TameR]
      · rename_i h'
        split at h' <;> cases h'
      · refine (TameR.assert _).bind fun _ _ => ?_
        have : (c.ind + 1) % 256 = c.ind + 1 := by omega
        simp only [TameR, this]
        exact ⟨hr, hlt⟩

/-- the errors for the chain hashes and what follows -/
inductive Late : ErrorCode → Prop
  | mode : Late .ERR_CHAINHASHMODE_FORMAT_INVALID
  | block : Late .ERR_CHAINHASH_DATABLOCK_OUTOFRANGE
  | part : Late .ERR_CHAINHASH_DATAPART_INVALID
  | first : Late .ERR_CHAINHASH1_INVALID
  | second : Late .ERR_CHAINHASH2_INVALID
  | size : Late .ERR_FILESIZE_INVALID
  | other : Late .ERR

theorem addBytes_noLogic {c : ChainHashData} {nl : NameLen} {rest : List NameLen} (h : Due c (nl :: rest)) (b : Bytes) :
    c.addBytes b ≠ .exn .logicError := by
  obtain ⟨h1, h2⟩ := h
  have hlt : c.ind < c.mode.nameLens.length := by
    refine Nat.lt_of_le_of_ne h2 fun he => ?_
    rw [he, List.drop_length] at h1
    cases h1
  intro he
  unfold ChainHashData.addBytes at he
  rw [if_neg (by simp [ChainHashData.isComplete]; omega)] at he
  split at he
  · cases he
  · split at he
    · cases he
    · unfold Bytes.addcopyToBytes at he
      split at he
      · unfold Res.assert at he
        split at he <;> cases he
      · rename_i e _ h'
        split at h' <;> cases h'
        cases he
      · cases he
      · unfold Res.assert at he
        split at he <;> cases he

theorem cp_noLogic (n i : Nat) : cp file n i ≠ .exn .logicError := by
  intro h
  unfold cp Bytes.copySubBytes at h
  split at h
  · cases h
  · rename_i h'
    cases h
    split at h'
    · cases h'
    · split at h' <;> cases h'
  · cases h

theorem cpStar_noLogic (d n i : Nat) : cpStar file d n i ≠ .exn .logicError := by
  intro h
  unfold cpStar Bytes.copySubBytes at h
  simp only at h
  split at h
  · cases h
  · rename_i h'
    cases h
    split at h'
    · cases h'
    · split at h' <;> cases h'
  · cases h

/-- the handler of the loop over the parts gives a late error, unless the exception says that the data is complete -/
theorem Tame.parts {Q : α → Prop} {p : Par Nat α} {i : Nat} (h : Tame Late Q (p i)) (hl : p i ≠ .exn .logicError) :
    Tame Late Q (Par.onExn p (fun
      | .lengthError => some .ERR_CHAINHASH_DATABLOCK_OUTOFRANGE
      | .invalidArgument => some .ERR_CHAINHASH_DATAPART_INVALID
      | .logicError => some .ERR_CHAINHASH_DATABLOCK_ALREADY_COMPLETED
      | .runtimeError => some .ERR
      | .pointer => none) i) := by
  unfold Par.onExn
  cases hp : p i with
  | ok x => rw [hp] at h; exact h
  | exn e =>
    rw [hp] at h hl
    cases e with
    | lengthError => exact Late.block
    | invalidArgument => exact Late.part
    | logicError => exact absurd rfl hl
    | runtimeError => exact Late.other
    | pointer => exact absurd rfl h
  | fatal e => rw [hp] at h; exact h

theorem cpParts_tame (dblen : Nat) (rest : List NameLen) : ∀ (c : ChainHashData) (n i : Nat), Due c rest →
    Tame Late (fun _ => True) (cpParts file dblen rest c n i) := by
  induction rest with
  | nil => intro c n i _; trivial
  | cons nl rest ih =>
    intro c n i h
    rw [cpParts]
    by_cases hnl : nl.len ≠ 0
    · rw [if_pos hnl]
      refine Tame.bind (P := fun _ => True) (Tame.parts ((Tame.cp _ _).mono (fun _ h => h) fun _ _ => trivial) (cp_noLogic _ _))
        fun l j _ => ?_
      refine Tame.bind (Tame.parts (Tame.lift j (addBytes_tame h _)) ?_) fun c' j' h' => ih c' _ j' h'
      have := addBytes_noLogic h ⟨l, nl.len⟩
      intro he
      unfold Par.lift at he
      split at he <;> cases he
      contradiction
    · rw [if_neg hnl]
      refine Tame.bind (P := fun _ => True) (Tame.parts (Tame.cpStar _ _ _) (cpStar_noLogic _ _ _)) fun l j _ => ?_
      refine Tame.bind (Tame.parts (Tame.lift j (addBytes_tame h _)) ?_) fun c' j' h' => trivial
      have := addBytes_noLogic h ⟨l, l.length⟩
      intro he
      unfold Par.lift at he
      split at he <;> cases he
      contradiction

theorem catchInvalidAll_late {c : ErrorCode} (h : Late c) : ∀ e k, catchInvalidAll c e = some k → Late k := by
  intro e k hk
  cases e <;> simp only [catchInvalidAll] at hk <;> cases hk <;> first | exact h | exact .other

theorem catchAll_late : ∀ e k, catchAll e = some k → Late k := by
  intro e k hk
  cases e <;> simp only [catchAll] at hk <;> cases hk <;> exact .other

theorem catchInvalid_late {c : ErrorCode} (h : Late c) : ∀ e k, catchInvalid c e = some k → Late k := by
  intro e k hk
  cases e <;> simp only [catchInvalid] at hk <;> cases hk <;> exact h

theorem cpChainHash_tame (i : Nat) : Tame Late (fun _ => True) (cpChainHash file i) := by
  unfold cpChainHash
  refine Tame.bind (Tame.onExn (Tame.cpByte _) (catchInvalidAll_late .mode)) fun b j _ => ?_
  cases CHMode.ofByte b with
  | none => exact Late.mode
  | some m =>
    refine (Tame.cpLong _).bind fun _ _ _ => (Tame.cpByte _).bind fun dblen j _ => ?_
    refine (cpParts_tame dblen.toNat m.nameLens _ 0 j ⟨rfl, Nat.zero_le _⟩).bind fun x j _ => ?_
    exact (Tame.lift _ (TameR.assert _)).bind fun _ _ _ => (Tame.lift _ (TameR.assert _)).bind fun _ _ _ => trivial

theorem cpBlocks_tame (k : Nat) : ∀ (d : DataHeader) (i : Nat), Sound d → Tame Late Sound (cpBlocks file k d i) := by
  induction k with
  | zero => intro d i h; exact h
  | succ k ih =>
    intro d i h
    rw [cpBlocks]
    exact (Tame.cpByte _).bind fun _ _ _ => (Tame.cpByte _).bind fun _ _ _ => (Tame.cp _ _).bind fun _ _ _ =>
      (Tame.lift _ (DataHeader.addDataBlock_tame h _ _)).bind fun d' j h' => ih d' j h'

theorem cpEncBlocks_tame (k : Nat) : ∀ (d : DataHeader) (i : Nat), Sound d → Tame Late Sound (cpEncBlocks file k d i) := by
  induction k with
  | zero => intro d i h; exact h
  | succ k ih =>
    intro d i h
    rw [cpEncBlocks]
    exact (Tame.cpByte _).bind fun _ _ _ => (Tame.cpByte _).bind fun _ _ _ => (Tame.cp _ _).bind fun _ _ _ =>
      (Tame.lift _ (DataHeader.addEncDataBlock_tame h _ _ _)).bind fun d' j h' => ih d' j h'

/-- `cpContent` after the two modes -/
def cpTail (file : Bytes) (hs : Hashes) (fileSize : UInt64) (d : DataHeader) : Par Nat DataHeader := do
  let count ← cpByte file
  let d ← cpBlocks file count.toNat d
  let c1 ← cpChainHash file
  let d ← Par.onExn (Par.lift (d.setChainHash1 c1)) (catchInvalidAll .ERR_CHAINHASH1_INVALID)
  let c2 ← cpChainHash file
  let d ← Par.onExn (Par.lift (d.setChainHash2 c2)) (catchInvalidAll .ERR_CHAINHASH2_INVALID)
  let v ← Par.onExn (cp file d.hashSize) catchAll
  let d ← Par.onExn (Par.lift (d.setValidPasswordHashBytes ⟨v, d.hashSize⟩)) catchAll
  let s ← Par.onExn (cp file d.hashSize) catchAll
  let d ← Par.onExn (Par.lift (d.setEncSalt ⟨s, d.hashSize⟩)) catchAll
  let ecount ← cpByte file
  let d ← cpEncBlocks file ecount.toNat d
  let d ← Par.onExn (Par.lift (d.setFileSize fileSize)) (catchInvalid .ERR_FILESIZE_INVALID)
  Par.onExn (Par.lift (d.calcHeaderBytes! hs (Bytes.empty 0) fun _ => 0)) catchAll

theorem cpTail_tame (hs : Hashes) (n : UInt64) {d : DataHeader} (h : Sound d) (i : Nat) :
    Tame Late Sound (cpTail file hs n d i) := by
  unfold cpTail
  refine (Tame.cpByte _).bind fun _ _ _ => (cpBlocks_tame _ _ _ h).bind fun d _ h => ?_
  refine (cpChainHash_tame _).bind fun c _ _ => ?_
  refine Tame.bind (Tame.onExn (Tame.lift _ (DataHeader.setChainHash1_tame h c)) (catchInvalidAll_late .first)) fun d _ h => ?_
  refine (cpChainHash_tame _).bind fun c _ _ => ?_
  refine Tame.bind (Tame.onExn (Tame.lift _ (DataHeader.setChainHash2_tame h c)) (catchInvalidAll_late .second)) fun d _ h => ?_
  refine Tame.bind (Tame.onExn (Tame.cp _ _) catchAll_late) fun v _ _ => ?_
  refine Tame.bind (Tame.onExn (Tame.lift _ (DataHeader.setValidator_tame h _)) catchAll_late) fun d _ h => ?_
  refine Tame.bind (Tame.onExn (Tame.cp _ _) catchAll_late) fun v _ _ => ?_
  refine Tame.bind (Tame.onExn (Tame.lift _ (DataHeader.setEncSalt_tame h _)) catchAll_late) fun d _ h => ?_
  refine (Tame.cpByte _).bind fun _ _ _ => (cpEncBlocks_tame _ _ _ h).bind fun d _ h => ?_
  refine Tame.bind (Tame.onExn (Tame.lift _ (DataHeader.setFileSize_tame h _)) (catchInvalid_late .size)) fun d _ h => ?_
  exact Tame.onExn (Tame.lift _ (DataHeader.calcHeaderBytes_tame h hs _)) catchAll_late

theorem cpContent_eq (hs : Hashes) (r : Rand) (n : UInt64) : cpContent file hs r n = (do
    let fmode ← cpByte file
    let hmode ← cpByte file
    let d ← Par.onExn (Par.lift (DataHeader.new hmode r)) (catchInvalid .ERR_HASHMODE_INVALID)
    let d ← Par.onExn (Par.lift (d.setFileDataMode fmode)) (catchInvalid .ERR_FILEMODE_INVALID)
    cpTail file hs n d) := rfl

/-- what the memory parser does from the modes on -/
def cpEnd (file : Bytes) (hs : Hashes) (n headerSize : UInt64) (d : DataHeader) : Par Nat DataHeader := do
  let d ← cpTail file hs n d
  fun i => Par.lift (do
    Res.assert (i == headerSize.toNat)
    let l ← d.getHeaderLength
    Res.assert (l == headerSize.toNat)
    .ok d) i

theorem cpEnd_tame (hs : Hashes) (n headerSize : UInt64) {d : DataHeader} (h : Sound d) (i : Nat) :
    Tame Late (fun _ => True) (cpEnd file hs n headerSize d i) := by
  unfold cpEnd
  refine (cpTail_tame hs n h i).bind fun d j h => Tame.lift _ ?_
  exact (TameR.assert _).bind fun _ _ => (DataHeader.length_tame h).bind fun _ _ => (TameR.assert _).bind fun _ _ => trivial

/-- what comes out of the memory parser, in the order of its steps -/
theorem setHeaderMem_cases (file : Bytes) (hs : Hashes) {r : Rand} (hr : r.good = true) :
    (file.data.length < 16 ∧ setHeaderMem file hs r = .ok (.stop .ERR_NOT_ENOUGH_DATA)) ∨
    ∃ (n hsize : UInt64) (l : List Byte), file.data = num8 n.toNat ++ (num8 hsize.toNat ++ l) ∧
      ((file.data.length < hsize.toNat ∧ setHeaderMem file hs r = .ok (.stop .ERR_NOT_ENOUGH_DATA)) ∨
      hsize.toNat ≤ file.data.length ∧
        ((l.length < 2 ∧ setHeaderMem file hs r = .ok (.stop .ERR)) ∨
        ∃ fmode hmode l', l = fmode :: hmode :: l' ∧
          ((HMode.ofByte hmode = none ∧ setHeaderMem file hs r = .ok (.stop .ERR_HASHMODE_INVALID)) ∨
          ∃ m, HMode.ofByte hmode = some m ∧
            ((fmode ≠ 1 ∧ setHeaderMem file hs r = .ok (.stop .ERR_FILEMODE_INVALID)) ∨
            fmode = 1 ∧ setHeaderMem file hs r = Res.noexcept (Par.onExn (cpEnd file hs n hsize
              (obj m none ⟨r.take m.size, m.size⟩ [] [] ChainHash.default ChainHash.default none)) catchAll 18))))) := by
  have cpShort : ∀ {k i : Nat}, file.data.length < i + k → cp file k i = .exn .lengthError := by
    intro k i h
    unfold cp Bytes.copySubBytes
    rw [if_neg (by omega), if_pos h]
  have out : ∀ {c}, cpHeader file hs r 0 = .ok (.stop c) → setHeaderMem file hs r = .ok (.stop c) := by
    intro c h
    unfold setHeaderMem
    rw [Par.onExn_ok h]
    rfl
  by_cases h16 : file.data.length < 16
  · refine .inl ⟨h16, out ?_⟩
    unfold cpHeader
    by_cases h8 : file.data.length < 8
    · refine Par.bind_stop_eq (Par.onExn_caught (e := .lengthError) ?_ rfl)
      unfold cpLong
      exact Par.bind_exn_eq (cpShort (by omega))
    · obtain ⟨n, l, e⟩ := split_num8 (l := file.data) (by omega)
      have a0 : At file 0 (num8 n.toNat ++ l) := ⟨e, by omega⟩
      rw [Par.bind_val_eq (Par.onExn_ok (cpLong_at a0 (by decide)))]
      refine Par.bind_stop_eq (Par.onExn_caught (e := .lengthError) ?_ rfl)
      unfold cpLong
      exact Par.bind_exn_eq (cpShort (by omega))
  · refine .inr ?_
    obtain ⟨n, l, e⟩ := split_num8 (l := file.data) (by omega)
    have hl : l.length + 8 = file.data.length := by rw [e]; simp; omega
    obtain ⟨hsize, l, rfl⟩ := split_num8 (l := l) (by omega)
    rw [List.length_append, length_num8] at hl
    refine ⟨n, hsize, l, e, ?_⟩
    have a0 : At file 0 (num8 n.toNat ++ (num8 hsize.toNat ++ l)) := ⟨e, by omega⟩
    have a8 := a0.next' (length_num8 _)
    have a16 := a8.next' (length_num8 _)
    have start : cpHeader file hs r 0 = (if hsize.toNat > file.len then Par.fail .ERR_NOT_ENOUGH_DATA
        else do
          let d ← cpContent file hs r n
          fun i => Par.lift (do
            Res.assert (i == hsize.toNat)
            let l ← d.getHeaderLength
            Res.assert (l == hsize.toNat)
            .ok d) i : Par Nat DataHeader) 16 := by
      unfold cpHeader
      rw [Par.bind_val_eq (Par.onExn_ok (cpLong_at a0 (by decide))), Par.bind_val_eq (Par.onExn_ok (cpLong_at a8 (by decide)))]
    by_cases hsz : file.data.length < hsize.toNat
    · refine .inl ⟨hsz, out ?_⟩
      rw [start, if_pos (show hsize.toNat > file.len from hsz)]; rfl
    · refine .inr ⟨by omega, ?_⟩
      rw [if_neg (show ¬ hsize.toNat > file.len from hsz)] at start
      have lost : ∀ {e}, e ≠ .pointer → cpHeader file hs r 0 = .exn e → setHeaderMem file hs r = .ok (.stop .ERR) := by
        intro e he h
        unfold setHeaderMem
        rw [Par.onExn_caught (c := .ERR) h (by cases e <;> first | rfl | exact absurd rfl he)]
        rfl
      match l, hl, a16 with
      | [], hl, a16 =>
        refine .inl ⟨by decide, lost (e := .lengthError) (by decide) ?_⟩
        rw [start, cpContent_eq]
        refine Par.bind_exn_eq (Par.bind_exn_eq ?_)
        unfold cpByte
        exact Par.bind_exn_eq (cpShort (by simp at hl; omega))
      | [x], hl, a16 =>
        refine .inl ⟨by simp, lost (e := .lengthError) (by decide) ?_⟩
        rw [start, cpContent_eq]
        refine Par.bind_exn_eq ?_
        rw [Par.bind_val_eq (cpByte_at a16 (by decide))]
        refine Par.bind_exn_eq ?_
        unfold cpByte
        exact Par.bind_exn_eq (cpShort (by simp at hl; omega))
      | fmode :: hmode :: l', hl, a16 =>
        refine .inr ⟨fmode, hmode, l', rfl, ?_⟩
        have a17 := a16.next1
        cases hm : HMode.ofByte hmode with
        | none =>
          refine .inl ⟨rfl, out ?_⟩
          rw [start, cpContent_eq]
          refine Par.bind_stop_eq ?_
          rw [Par.bind_val_eq (cpByte_at a16 (by decide)), Par.bind_val_eq (cpByte_at a17 (by decide))]
          refine Par.bind_stop_eq ?_
          rw [start_new hr, hm]
        | some m =>
          refine .inr ⟨m, rfl, ?_⟩
          have hn : Par.onExn (Par.lift (DataHeader.new hmode r)) (catchInvalid .ERR_HASHMODE_INVALID) 18 =
              .ok (.val ⟨⟨none, some m, none, some ⟨r.take m.size, m.size⟩, [], [], ChainHash.default, ChainHash.default⟩,
                m.size, ⟨[], 0⟩, none, 0⟩ 18) := by rw [start_new hr, hm]
          by_cases hf : fmode = 1
          · refine .inr ⟨hf, ?_⟩
            have hc : cpContent file hs r n 16 = cpTail file hs n
                (obj m none ⟨r.take m.size, m.size⟩ [] [] ChainHash.default ChainHash.default none) 18 := by
              rw [cpContent_eq, Par.bind_val_eq (cpByte_at a16 (by decide)), Par.bind_val_eq (cpByte_at a17 (by decide)),
                Par.bind_val_eq hn, Par.bind_val_eq (by rw [start_mode, if_pos hf])]
            have hh : cpHeader file hs r 0 = cpEnd file hs n hsize
                (obj m none ⟨r.take m.size, m.size⟩ [] [] ChainHash.default ChainHash.default none) 18 := by
              rw [start]
              show Par.bind _ _ 16 = Par.bind _ _ 18
              unfold Par.bind
              rw [hc]
            unfold setHeaderMem Par.onExn
            rw [hh]
          · refine .inl ⟨hf, out ?_⟩
            rw [start, cpContent_eq]
            refine Par.bind_stop_eq ?_
            rw [Par.bind_val_eq (cpByte_at a16 (by decide)), Par.bind_val_eq (cpByte_at a17 (by decide)), Par.bind_val_eq hn]
            refine Par.bind_stop_eq ?_
            rw [start_mode, if_neg hf]

/-- the memory parser from the modes on: a header, a late error or a failed assertion -/
theorem cpEnd_result (file : Bytes) (hs : Hashes) (n hsize : UInt64) {d : DataHeader} (h : Sound d) (i : Nat) :
    (∃ d' j, Res.noexcept (Par.onExn (cpEnd file hs n hsize d) catchAll i) = .ok (.val d' j)) ∨
    (∃ c, Late c ∧ Res.noexcept (Par.onExn (cpEnd file hs n hsize d) catchAll i) = .ok (.stop c)) ∨
    Res.noexcept (Par.onExn (cpEnd file hs n hsize d) catchAll i) = .fatal .abort := by
  have ht := cpEnd_tame (file := file) hs n hsize h i
  unfold Par.onExn
  cases hp : cpEnd file hs n hsize d i with
  | ok x =>
    rw [hp] at ht
    cases x with
    | val a j => exact .inl ⟨a, j, rfl⟩
    | stop c => exact .inr (.inl ⟨c, ht, rfl⟩)
  | exn e =>
    rw [hp] at ht
    refine .inr (.inl ⟨.ERR, .other, ?_⟩)
    cases e <;> first | rfl | exact absurd rfl ht
  | fatal e =>
    rw [hp] at ht
    obtain rfl : e = .abort := ht
    exact .inr (.inr rfl)

theorem sound_start (m : HMode) (s : Bytes) : Sound (obj m none s [] [] ChainHash.default ChainHash.default none) :=
  ⟨fun h => (by cases h), fun h => (by cases h)⟩

/-- blocks are read one after the other -/
theorem cpBlocks_add (a b : Nat) : ∀ (d : DataHeader) (i : Nat) {d' : DataHeader} {j : Nat},
    cpBlocks file a d i = .ok (.val d' j) → cpBlocks file (a + b) d i = cpBlocks file b d' j := by
  induction a with
  | zero =>
    intro d i d' j h
    cases h
    rw [Nat.zero_add]
  | succ a ih =>
    intro d i d' j h
    rw [Nat.succ_add, cpBlocks]
    rw [cpBlocks] at h
    obtain ⟨t, i1, h1, h⟩ := bind_val h
    obtain ⟨len, i2, h2, h⟩ := bind_val h
    obtain ⟨x, i3, h3, h⟩ := bind_val h
    obtain ⟨d1, i4, h4, h⟩ := bind_val h
    rw [Par.bind_val_eq h1, Par.bind_val_eq h2, Par.bind_val_eq h3, Par.bind_val_eq h4]
    exact ih d1 i4 h

/-- an empty data block makes the loop throw -/
theorem cpBlocks_zero {d : DataHeader} (k : Nat) {i : Nat} {t : Byte} {l : List Byte} (h : At file i (t :: 0 :: l))
    (hs : i + 2 < 2 ^ 16) : cpBlocks file (k + 1) d i = .exn .invalidArgument := by
  rw [cpBlocks, Par.bind_val_eq (cpByte_at h (by omega)), Par.bind_val_eq (cpByte_at h.next1 (by omega))]
  have h2 : At file (i + 1 + 1) ([] ++ l) := h.next1.next1
  rw [Par.bind_val_eq (cp_at (n := UInt8.toNat 0) rfl h2 (by simp; omega))]
  exact Par.bind_exn_eq rfl

end HeaderParse
end Verif
