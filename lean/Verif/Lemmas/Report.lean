import Verif.Lemmas.ToldTexts
import Verif.Lemmas.ToldCalls
import Verif.Lemmas.HeaderFlaw
import Verif.Lemmas.Pace
import Verif.Lemmas.Session
import Verif.Spec.Report

/- The texts of the parser are those of Spec/Report. -/
namespace Verif.Tell
open Spec HeaderParse
variable {α β : Type}

/-- the errors a damaged header is answered by -/
def headerCodes : List ErrorCode :=
  [.ERR_NOT_ENOUGH_DATA, .ERR_FILESIZE_INVALID, .ERR_HEADERSIZE_FILESIZE_MISMATCH, .ERR_HASHMODE_INVALID,
   .ERR_FILEMODE_INVALID, .ERR_CHAINHASHMODE_FORMAT_INVALID, .ERR_CHAINHASH1_INVALID, .ERR_CHAINHASH2_INVALID]

/-- `p` reads what `L` begins with, the rest is `K`; `x` may be said besides -/
def Keeps (x : List Byte) (p : Say IStream α) (K : α → Layout) (L : Layout) : Prop := ∀ s, s.eof = false →
  (∀ a s', p s = .ok (.val a s') → s'.eof = false ∧ L.report s.rest = (K a).report s'.rest) ∧
  (∀ c i, p s = .ok (.stop c i) → c ∈ headerCodes → L.report s.rest = some (c, i) ∨ (c = .ERR_FILESIZE_INVALID ∧ i = x))

variable {x : List Byte}

theorem say_bind (p : Say IStream α) (f : α → Say IStream β) (s : IStream) : (p >>= f) s = match p s with
  | .ok (.val a s) => f a s
  | .ok (.stop c i) => .ok (.stop c i)
  | .exn e => .exn e
  | .fatal f => .fatal f := by
  show Say.bind p f s = _
  unfold Say.bind
  rcases p s with (⟨a, s'⟩ | ⟨c', i'⟩) | e | y <;> rfl

theorem keeps_pure (a : α) (K : α → Layout) : Keeps x (pure a) K (K a) := fun s he =>
  ⟨fun _ _ h => by cases h; exact ⟨he, rfl⟩, fun _ _ h => by cases h⟩

theorem keeps_bind {p : Say IStream α} {f : α → Say IStream β} {K : β → Layout} {K' : α → Layout} {L : Layout} (h : Keeps x p K' L)
    (hf : ∀ a, Keeps x (f a) K (K' a)) : Keeps x (p >>= f) K L := by
  intro s he
  rw [say_bind]
  rcases hp : p s with (⟨a, s'⟩ | ⟨c', i'⟩) | e | y
  · obtain ⟨he', hr⟩ := (h s he).1 a s' hp
    rw [hr]
    exact hf a s' he'
  · refine ⟨fun _ _ h => (by cases h), fun c i hs => ?_⟩
    cases hs
    exact (h s he).2 _ _ hp
  · exact ⟨fun _ _ h => (by cases h), fun _ _ h => (by cases h)⟩
  · exact ⟨fun _ _ h => (by cases h), fun _ _ h => (by cases h)⟩

theorem keeps_fail (c : ErrorCode) (i : List Byte) (K : α → Layout) : Keeps x (Say.fail c i) K (.wrong c i) := fun s he =>
  ⟨fun _ _ h => (by cases h), fun _ _ h _ => by cases h; exact .inl rfl⟩

theorem keeps_lift {y : Res α} {K : α → Layout} {L : Layout} (h : ∀ a, y = .ok a → K a = L) : Keeps x (Say.lift y) K L := by
  intro s he
  cases y with
  | ok a => exact ⟨fun _ _ hh => by cases hh; exact ⟨he, by rw [h a rfl]⟩, fun _ _ hh => (by cases hh)⟩
  | exn e => exact ⟨fun _ _ h => (by cases h), fun _ _ h => (by cases h)⟩
  | fatal f => exact ⟨fun _ _ h => (by cases h), fun _ _ h => (by cases h)⟩

theorem keeps_catch {y : Res α} {h : Exn → Option (ErrorCode × List Byte)} {K : α → Layout} {L : Layout}
    (hok : ∀ a, y = .ok a → K a = L)
    (hex : ∀ e c i, y = .exn e → h e = some (c, i) → c ∈ headerCodes → L = .wrong c i ∨ (c = .ERR_FILESIZE_INVALID ∧ i = x)) :
    Keeps x (Say.onExn (Say.lift y) h) K L := by
  intro s he
  cases y with
  | ok a => exact ⟨fun _ _ hh => by cases hh; exact ⟨he, by rw [hok a rfl]⟩, fun _ _ hh => (by cases hh)⟩
  | fatal f => exact ⟨fun _ _ h => (by cases h), fun _ _ h => (by cases h)⟩
  | exn e =>
    have hb : Say.onExn (Say.lift (.exn e)) h s = (match h e with
      | some (c, i) => (Res.ok (Said.stop c i) : Res (Said IStream α))
      | none => .exn e) := rfl
    rw [hb]
    cases hh : h e with
    | none => exact ⟨fun _ _ h => (by cases h), fun _ _ h => (by cases h)⟩
    | some r =>
      obtain ⟨c, i⟩ := r
      refine ⟨fun _ _ h => (by cases h), fun c' i' h' hm => ?_⟩
      cases h'
      rcases hex e c i rfl hh hm with h | h
      · exact .inl (by rw [h]; rfl)
      · exact .inr h

/-- the same on the bytes that are left -/
theorem transfer {p : Say IStream α} {q : Par IStream α} {r : Par (List Byte) α} (hf : Forgets p q) (hs : Sim q r) {s : IStream}
    (he : s.eof = false) : (∀ a s', p s = .ok (.val a s') → r s.rest = .ok (.val a s'.rest) ∧ s'.eof = false) ∧
    (∀ c i, p s = .ok (.stop c i) → r s.rest = .ok (.stop c)) := by
  have h1 := hf s
  have h2 := hs s he
  constructor
  · intro a s' h
    rw [h] at h1
    rw [← h1] at h2
    rcases hr : r s.rest with (⟨b, l⟩ | c) | e | y <;> rw [hr] at h2
    · obtain ⟨t, h3, h4, h5⟩ := h2
      cases h3
      exact ⟨by rw [h4], h5⟩
    · cases h2
    · cases h2
    · cases h2
  · intro c i h
    rw [h] at h1
    rw [← h1] at h2
    rcases hr : r s.rest with (⟨b, l⟩ | c) | e | y <;> rw [hr] at h2
    · obtain ⟨t, h3, h4, h5⟩ := h2
      cases h3
    · cases h2; rfl
    · cases h2
    · cases h2

theorem report_append {name : String} {n : Nat} {next : List Byte → Layout} {a l : List Byte} (h : a.length = n) :
    (Layout.field name n next).report (a ++ l) = (next a).report l := by
  rw [Layout.report, if_neg (by simp; omega), List.take_left' h, List.drop_left' h]

theorem report_short {name : String} {n : Nat} {next : List Byte → Layout} {l : List Byte} (h : l.length < n) :
    (Layout.field name n next).report l = some (.ERR_NOT_ENOUGH_DATA, ascii name) := by
  rw [Layout.report, if_pos h]

theorem stop_text {name : List Byte} {cap n : Nat} {s : IStream} {c : ErrorCode} {i : List Byte} (h : rdStream name cap n s = .ok (.stop c i)) :
    c = .ERR_NOT_ENOUGH_DATA ∧ i = name := by
  unfold rdStream at h
  rcases hr : readData s (Bytes.empty cap) n with ⟨_ | b, s'⟩ | e | y <;> rw [hr] at h <;> cases h
  exact ⟨rfl, rfl⟩

theorem keeps_rd (name : String) (cap n : Nat) (hc : n ≤ cap) (hn : n < 2 ^ 32) (next : List Byte → Layout) :
    Keeps x (rdStream (ascii name) cap n) next (.field name n next) := by
  intro s he
  obtain ⟨h1, h2⟩ := transfer (forgets_rdStream (ascii name) cap n) (sim_rd cap n) he
  rcases rd_cases cap n hc hn s.rest with h | ⟨a, l, h3, h4, h5⟩
  · constructor
    · intro a s' hv
      rw [(h1 a s' hv).1] at h
      cases h
    · intro c i hst _
      obtain ⟨rfl, rfl⟩ := stop_text hst
      refine .inl (report_short (Nat.lt_of_not_le fun hle => ?_))
      have := rd_append (a := s.rest.take n) (l := s.rest.drop n) (cap := cap) (n := n) (by simp; omega) hc hn
      rw [List.take_append_drop, h] at this
      cases this
  · constructor
    · intro b s' hv
      obtain ⟨h6, h7⟩ := h1 b s' hv
      rw [h5] at h6
      cases h6
      rw [h3]
      exact ⟨h7, report_append h4⟩
    · intro c i hst
      rw [h2 c i hst] at h5
      cases h5

theorem keeps_rd_mod (name : String) (n : Nat) (next : List Byte → Layout) :
    Keeps x (rdStream (ascii name) n n) next (.field name (n % 2 ^ 32) next) := by
  have : rdStream (ascii name) n n = rdStream (ascii name) n (n % 2 ^ 32) := by
    funext s
    unfold rdStream
    rw [readData_mod32]
  rw [this]
  exact keeps_rd name n _ (Nat.mod_le _ _) (Nat.mod_lt _ (by decide)) next

theorem byte_text {name : List Byte} {s : IStream} {c : ErrorCode} {i : List Byte} (h : rdByte rdStream name s = .ok (.stop c i)) :
    c = .ERR_NOT_ENOUGH_DATA ∧ i = name := by
  refine stops_bind (P := fun c i => c = .ERR_NOT_ENOUGH_DATA ∧ i = name) (fun _ _ _ h => stop_text h) (fun l => ?_) s c i h
  cases l with
  | nil => exact stops_lift _
  | cons x l => exact stops_pure x

theorem long_text {name : List Byte} {s : IStream} {c : ErrorCode} {i : List Byte} (h : rdLong rdStream name s = .ok (.stop c i)) :
    c = .ERR_NOT_ENOUGH_DATA ∧ i = name :=
  stops_bind (P := fun c i => c = .ERR_NOT_ENOUGH_DATA ∧ i = name) (fun _ _ _ h => stop_text h) (fun _ => stops_lift _) s c i h

theorem keeps_rdByte (name : String) (next : List Byte → Layout) :
    Keeps x (rdByte rdStream (ascii name)) (fun b => next [b]) (.field name 1 next) := by
  intro s he
  obtain ⟨h1, h2⟩ := transfer (forgets_rdByte forgets_rdStream (ascii name)) sim_rdByte he
  cases hl : s.rest with
  | nil =>
    rw [hl] at h1 h2
    constructor
    · intro a s' hv
      rw [rdByte_nil] at h1
      cases (h1 a s' hv).1
    · intro c i hst _
      obtain ⟨rfl, rfl⟩ := byte_text hst
      exact .inl rfl
  | cons b l =>
    rw [hl] at h1 h2
    rw [rdByte_cons] at h1 h2
    constructor
    · intro a s' hv
      obtain ⟨h3, h4⟩ := h1 a s' hv
      cases h3
      exact ⟨h4, report_append (a := [b]) rfl⟩
    · intro c i hst
      cases h2 c i hst

theorem keeps_rdLong (name : String) (next : List Byte → Layout) :
    Keeps x (rdLong rdStream (ascii name)) (fun n => next (num8 n.toNat)) (.field name 8 next) := by
  intro s he
  obtain ⟨h1, h2⟩ := transfer (forgets_rdLong forgets_rdStream (ascii name)) sim_rdLong he
  constructor
  · intro n s' hv
    obtain ⟨h3, h4⟩ := h1 n s' hv
    refine ⟨h4, ?_⟩
    rcases rdLong_cases s.rest with h | ⟨m, l, h5, h6⟩
    · rw [h3] at h; cases h
    · rw [h3] at h6
      cases h6
      rw [h5]
      exact report_append (length_num8 _)
  · intro c i hst _
    obtain ⟨rfl, rfl⟩ := long_text hst
    refine .inl (report_short (Nat.lt_of_not_le fun hle => ?_))
    obtain ⟨m, l, h5⟩ := split_num8 hle
    have h3 := h2 _ _ hst
    rw [h5, rdLong_append m.toNat_lt] at h3
    cases h3

/-! ### blocks -/

theorem beValue_byte (b : Byte) : beValue [b] = b.toNat := by simp [beValue]

theorem addDataBlock_size {d d' : DataHeader} {b : DataBlock} (h : d.addDataBlock b = .ok d') : d'.hashSize = d.hashSize := by
  unfold DataHeader.addDataBlock at h
  split at h <;> cases h
  rfl

theorem addEncDataBlock_size {d d' : DataHeader} {b : EncDataBlock} (h : d.addEncDataBlock b = .ok d') : d'.hashSize = d.hashSize := by
  unfold DataHeader.addEncDataBlock at h
  split at h <;> cases h
  rfl

theorem keeps_rdBlocks (next : Nat → Layout) (k : Nat) : ∀ d, Keeps x (rdBlocks rdStream k d) (fun d => next d.hashSize)
    (blocksLayout k (next d.hashSize)) := by
  induction k with
  | zero => exact fun d => keeps_pure d fun d => next d.hashSize
  | succ k ih =>
    intro d
    refine keeps_bind (keeps_rdByte "Data block type" _) fun _ => keeps_bind (keeps_rdByte "Data block len" _) fun len => ?_
    rw [beValue_byte]
    have := len.toNat_lt
    refine keeps_bind (keeps_rd "Data block data" _ _ (Nat.le_refl _) (by omega) _) fun data =>
      keeps_bind (keeps_lift (K := fun d => blocksLayout k (next d.hashSize)) fun d' h => ?_) fun d => ih d
    cases hm : DataBlock.make _ ⟨data, len.toNat⟩ with
    | ok b => rw [hm] at h; rw [addDataBlock_size h]
    | exn e => rw [hm] at h; cases h
    | fatal e => rw [hm] at h; cases h

theorem keeps_rdEncBlocks (k : Nat) : ∀ d, Keeps x (rdEncBlocks rdStream k d) (fun _ => .done) (encLayout k) := by
  induction k with
  | zero => exact fun d => keeps_pure d fun _ => .done
  | succ k ih =>
    intro d
    exact keeps_bind (keeps_rdByte "Enc datablock type" _) fun _ => keeps_bind (keeps_rdByte "Enc datablock len" _) fun len =>
      keeps_bind (keeps_rd "Enc datablock data" _ _ (Nat.le_refl _) (by decide) _) fun data =>
      keeps_bind (keeps_lift (K := fun _ => encLayout k) fun d' h => rfl) fun d => ih d

/-! ### chain hashes -/

/-- the text of the data block -/
theorem parts_text (num : List Byte) (dblen : Nat) : ∀ (nls : List NameLen) (c : ChainHashData) (n : Nat),
    Stops (fun c i => c ∈ headerCodes → c = .ERR_NOT_ENOUGH_DATA ∧ i = ascii "Chainhash data block " ++ num)
      (rdParts rdStream num dblen nls c n) := by
  have hpart : ∀ (c : ChainHashData) (b : Bytes),
      Stops (fun c i => c ∈ headerCodes → c = .ERR_NOT_ENOUGH_DATA ∧ i = ascii "Chainhash data block " ++ num)
        (Say.onExn (Say.lift (c.addBytes b)) (partHandler num b) : Say IStream ChainHashData) := by
    refine fun c b => stops_catch fun e c i _ h hm => ?_
    cases e <;> cases h <;> first
      | exact ⟨rfl, rfl⟩
      | exact absurd hm (by decide)
  intro nls
  induction nls with
  | nil => exact fun c n => stops_pure (c, n)
  | cons nl nls ih =>
    intro c n
    unfold rdParts
    by_cases h : nl.len ≠ 0
    · rw [if_pos h]
      exact stops_bind (fun _ _ _ h _ => stop_text h) fun l => stops_bind (hpart _ _) fun c => ih c _
    · rw [if_neg h]
      exact stops_bind (fun _ _ _ h _ => stop_text h) fun l => stops_bind (hpart _ _) fun c => stops_pure (c, dblen)

theorem make_val {m : CHMode} {n : UInt64} {p : List Byte} (hb : blockLenOk m.num p.length = true) :
    (ChainHash.make m n (some (full m p))).val = true ↔ ¬ (n.toNat = 0 ∨ 1000000000 < n.toNat) := by
  have h := obj_setCh1 (m := .sha256) (v := none) (s := ⟨[], 0⟩) (dec := []) (enc := []) (c1 := ChainHash.default)
    (c2 := ChainHash.default) (fs := none) (cm := m) (n := n) hb
  have hv : (ChainDesc.mk m.toByte n.toNat p).Valid ↔ ¬ (n.toNat = 0 ∨ 1000000000 < n.toNat) :=
    ⟨fun ⟨h1, h2, _⟩ => by simp only at h1 h2; omega, fun h => ⟨by simp only; omega, by simp only; omega, hb⟩⟩
  rw [← hv]
  unfold DataHeader.setChainHash1 at h
  by_cases hval : (ChainDesc.mk m.toByte n.toNat p).Valid
  · rw [if_pos hval] at h
    cases hc : (ChainHash.make m n (some (full m p))).val with
    | true => exact ⟨fun _ => hval, fun _ => rfl⟩
    | false => rw [hc] at h; cases h
  · rw [if_neg hval] at h
    cases hc : (ChainHash.make m n (some (full m p))).val with
    | false => exact ⟨fun h => (by cases h), fun h => absurd h hval⟩
    | true =>
      exfalso
      rw [hc] at h
      have ha : ∃ c, (ChainHash.make m n (some (full m p))).assign = .ok c := by
        unfold ChainHash.assign ChainHash.getMode ChainHash.getIters
        rw [hc]
        exact ⟨_, rfl⟩
      obtain ⟨c, ha⟩ := ha
      rw [ha] at h
      cases h

theorem beValue_num8 (n : UInt64) : beValue (num8 n.toNat) = n.toNat := by
  rw [← num8_ofNat n.toNat_lt, UInt64.ofNat_toNat, beValue_be8]

theorem fixed_len {m : CHMode} {k : Nat} (h : blockLenOk m.num k = true) : (fixedLen m.toByte).getD k = k := by
  cases m <;> simp [blockLenOk, CHMode.num, CHMode.toByte, fixedLen] at h ⊢ <;> omega

theorem keeps_rdChainHash (num : String) (code : ErrorCode) (next : Layout) :
    Keeps x (rdChainHash rdStream (ascii num)) (fun c => if c.val then next else .wrong code initial) (chainLayout num code next) := by
  have ha : ∀ a b : String, ascii (a ++ b) = ascii a ++ ascii b := by
    intro a b
    simp [ascii]
  refine keeps_bind (by rw [← ha, ← ha]; exact keeps_rdByte _ _) fun mode => ?_
  cases hm : CHMode.ofByte mode with
  | none =>
    have : [mode] ∉ [[1], [2], [3], [4], [(5 : Byte)]] := by
      have := chain_unknown hm
      simpa [knownChain] using this
    rw [if_pos this]
    exact keeps_fail _ _ _
  | some m =>
    obtain rfl := CHMode.toByte_of_ofByte hm
    have : ¬ [m.toByte] ∉ [[1], [2], [3], [4], [(5 : Byte)]] := by cases m <;> decide
    rw [if_neg this]
    refine keeps_bind (by rw [← ha, ← ha]; exact keeps_rdLong _ _) fun n => keeps_bind (by rw [← ha, ← ha]; exact keeps_rdByte _ _) fun len => ?_
    intro s he
    rw [beValue_byte, beValue_num8]
    have hf := forgets_bind (forgets_rdParts forgets_rdStream (ascii num) len.toNat m.nameLens (ChainHashData.new m) 0) fun x =>
      forgets_bind (forgets_lift (σ := IStream) (Res.assert (x.1.getLen == len.toNat))) fun _ =>
      forgets_bind (forgets_lift (Res.assert (x.2 == len.toNat))) fun _ => forgets_pure (ChainHash.make m n (some x.1))
    have hsim := Sim.bind (sim_rdParts len.toNat m.nameLens (ChainHashData.new m) 0) fun x =>
      Sim.bind (Sim.lift (Res.assert (x.1.getLen == len.toNat))) fun _ =>
      Sim.bind (Sim.lift (Res.assert (x.2 == len.toNat))) fun _ => Sim.pure (ChainHash.make m n (some x.1))
    obtain ⟨h1, h2⟩ := transfer hf hsim he
    have hst := rdChainHash_start m n len s.rest
    have hex := rdChainHash_exact m n len s.rest
    have hbad : ∀ k, fixedLen m.toByte = some k → len.toNat ≠ k → k ≤ s.rest.length →
        HeaderParse.rdChainHash rdList (m.toByte :: (num8 n.toNat ++ len :: s.rest)) = .fatal .abort := fun k h3 h4 h5 =>
      rdChainHash_bad ⟨_, _, _, _, k, rfl, n.toNat_lt, h3, h4, h5⟩
    constructor
    · intro c s' hv
      obtain ⟨h3, h4⟩ := h1 c s' hv
      refine ⟨h4, ?_⟩
      rcases hex with ⟨h, -⟩ | ⟨p, l', h5, h6, h7, h8⟩ | ⟨-, h⟩
      · cases (hst.symm.trans h).symm.trans h3
      · cases h3.symm.trans (hst.symm.trans h8)
        rw [h6] at h7
        have h9 : ¬ ([m.toByte] = [4] ∧ len.toNat < 8) := by
          rintro ⟨h, hlt⟩
          cases m <;> simp [CHMode.toByte] at h
          simp [blockLenOk, CHMode.num, CHMode.toByte] at h7
          omega
        rw [if_neg h9, h5, List.headD_cons, fixed_len h7, report_append h6]
        by_cases hi : n.toNat = 0 ∨ 1000000000 < n.toNat
        · have hval : (ChainHash.make m n (some (full m p))).val = false :=
            Bool.eq_false_iff.mpr fun h => (make_val (h6 ▸ h7)).mp h hi
          rw [if_pos hi]
          simp only [hval]
          rfl
        · rw [if_neg hi]
          simp only [(make_val (n := n) (h6 ▸ h7)).mpr hi]
          rfl
      · cases (hst.symm.trans h).symm.trans h3
    · intro c i hs' hmem
      obtain ⟨rfl, rfl⟩ := stops_bind (parts_text (ascii num) len.toNat m.nameLens (ChainHashData.new m) 0) (fun x =>
        stops_bind (stops_lift (Res.assert (x.1.getLen == len.toNat))) fun _ =>
        stops_bind (stops_lift (Res.assert (x.2 == len.toNat))) fun _ => stops_pure (ChainHash.make m n (some x.1))) s c i hs' hmem
      have h3 := h2 _ _ hs'
      left
      by_cases h9 : [m.toByte] = [4] ∧ len.toNat < 8
      · rw [if_pos h9, Layout.report, ha]
      rw [if_neg h9, ← ha]
      refine report_short (Nat.lt_of_not_le fun hle => ?_)
      rw [List.headD_cons] at hle
      have hall : len.toNat ≤ s.rest.length → blockLenOk m.num len.toNat = true → False := by
        intro h4 h5
        have := rdChainHash_append m n (s.rest.take len.toNat) (s.rest.drop len.toNat) (by
          rw [List.length_take, Nat.min_eq_left h4]; exact h5)
        have e : (ChainDesc.mk m.toByte n.toNat (s.rest.take len.toNat)).bytes ++ s.rest.drop len.toNat =
            m.toByte :: (num8 n.toNat ++ len :: s.rest) := by
          simp only [ChainDesc.bytes, List.length_take, Nat.min_eq_left h4, UInt8.ofNat_toNat]
          simp
        rw [e] at this
        cases (hst.symm.trans this).symm.trans h3
      have hlt := len.toNat_lt
      cases hf : fixedLen m.toByte with
      | some k =>
        rw [hf, Option.getD_some] at hle
        by_cases hk : len.toNat = k
        · refine hall (by omega) ?_
          rw [hk]
          cases m <;> simp [fixedLen, CHMode.toByte] at hf <;> subst hf <;> rfl
        · cases (hst.symm.trans (hbad k hf hk hle)).symm.trans h3
      | none =>
        rw [hf, Option.getD_none] at hle
        refine hall hle ?_
        cases m <;> simp [fixedLen, CHMode.toByte] at hf <;> simp [blockLenOk, CHMode.num, CHMode.toByte] at h9 ⊢ <;> omega

theorem keeps_setChain (c : ChainHash) (code : ErrorCode) (num : List Byte) (d : DataHeader) (set : ChainHash → DataHeader)
    (hset : ∀ c, (set c).hashSize = d.hashSize) (next : Nat → Layout) :
    Keeps x (Say.onExn (Say.lift (if !c.val then .exn .invalidArgument else c.assign >>= fun c => .ok (set c)))
      (chainHandler code num)) (fun d => next d.hashSize) (if c.val then next d.hashSize else .wrong code initial) := by
  refine keeps_catch (fun d' h => ?_) fun e c' i h he hm => ?_
  · cases hv : c.val with
    | false => rw [hv] at h; cases h
    | true =>
      rw [hv] at h
      cases hc : c.assign with
      | ok c1 =>
        rw [hc] at h
        cases h
        rw [hset]
        rfl
      | exn e => rw [hc] at h; cases h
      | fatal e => rw [hc] at h; cases h
  · cases hv : c.val with
    | false =>
      rw [hv] at h
      cases h
      cases he
      exact .inl rfl
    | true =>
      exfalso
      rw [hv] at h
      have : e ≠ .invalidArgument := by
        rintro rfl
        unfold ChainHash.assign ChainHash.getMode ChainHash.getIters at h
        rw [hv] at h
        cases hmode : c.mode <;> rw [hmode] at h <;> cases h
      cases e <;> cases he <;> first
        | exact absurd rfl this
        | exact absurd hm (by decide)

/-! ### the whole header -/

theorem setFileDataMode_size {d d' : DataHeader} {m : Byte} (h : d.setFileDataMode m = .ok d') : d'.hashSize = d.hashSize ∧ m = 1 := by
  unfold DataHeader.setFileDataMode DataHeaderParts.setFileDataMode at h
  by_cases hm : fileModeValid m = true
  · rw [if_pos hm] at h
    cases h
    refine ⟨rfl, UInt8.toNat_inj.mp ?_⟩
    simp only [fileModeValid, Bool.and_eq_true, decide_eq_true_eq] at hm
    have h1 := UInt8.lt_iff_toNat_lt.mp hm.1
    have h2 := UInt8.le_iff_toNat_le.mp hm.2
    simp only [UInt8.reduceToNat] at h1 h2 ⊢
    omega
  · rw [if_neg hm] at h
    cases h

theorem setValidator_size {d d' : DataHeader} {b : Bytes} (h : d.setValidPasswordHashBytes b = .ok d') : d'.hashSize = d.hashSize := by
  unfold DataHeader.setValidPasswordHashBytes at h
  cases hp : d.dh.setValidPasswordHash b <;> rw [hp] at h <;> cases h
  rfl

theorem new_size {m : Byte} {r : Rand} {d : DataHeader} (h : DataHeader.new m r = .ok d) :
    (m = 1 ∨ m = 2 ∨ m = 3) ∧ d.hashSize = digestSize m := by
  by_cases hg : r.good = true
  · rw [new_good m r hg] at h
    cases hm : HMode.ofByte m with
    | none => rw [hm] at h; cases h
    | some k =>
      rw [hm] at h
      cases h
      obtain rfl := HMode.toByte_of_ofByte hm
      exact ⟨ofByte_valid hm, (digestSize_toByte k).symm⟩
  · exact absurd h (new_bad (Bool.eq_false_iff.mpr hg))

theorem keeps_any {y : Res α} {i : List Byte} {K : α → Layout} {L : Layout} (hok : ∀ a, y = .ok a → K a = L) :
    Keeps x (Say.onExn (Say.lift y) (any i)) K L := by
  refine keeps_catch hok fun e c j _ he hm => ?_
  cases e <;> cases he <;> exact absurd hm (by decide)

/-- the fields behind the chain hashes -/
def endLayout (size : Nat) : Layout :=
  .field "Password validator hash" size fun _ => .field "Encrypted salt" size fun _ =>
  .field "Encrypted block count" 1 fun count => encLayout (beValue count)

theorem keeps_rdContent (hs : Hashes) (r : Rand) (n : UInt64) : Keeps [UInt8.ofNat n.toNat] (rdContent rdStream hs r n) (fun _ => .done)
    (.field "File mode" 1 fun fileMode => .field "Hash mode" 1 fun hashMode =>
      if hashMode ≠ [1] ∧ hashMode ≠ [2] ∧ hashMode ≠ [3] then .wrong .ERR_HASHMODE_INVALID hashMode
      else if fileMode ≠ [1] then .wrong .ERR_FILEMODE_INVALID fileMode
      else contentLayout (digestSize (hashMode.headD 0))) := by
  refine keeps_bind (keeps_rdByte "File mode" _) fun fmode => keeps_bind (keeps_rdByte "Hash mode" _) fun hmode =>
    keeps_bind (K' := fun d => if fmode ≠ 1 then .wrong .ERR_FILEMODE_INVALID [fmode] else contentLayout (d.hashSize % 2 ^ 32))
      (keeps_catch (fun d h => ?_) fun e c i h he hm => ?_) fun d =>
    keeps_bind (K' := fun d => contentLayout (d.hashSize % 2 ^ 32)) (keeps_catch (fun d h => ?_) fun e c i h he hm => ?_) fun d =>
    keeps_bind (keeps_rdByte "Data block count" _) fun count => ?_
  · obtain ⟨h1, h2⟩ := new_size h
    have h3 : ¬ ([hmode] ≠ [1] ∧ [hmode] ≠ [2] ∧ [hmode] ≠ [3]) := by
      rcases h1 with rfl | rfl | rfl <;> decide
    have h4 : digestSize hmode % 2 ^ 32 = digestSize hmode := by
      rcases h1 with rfl | rfl | rfl <;> rfl
    rw [if_neg h3, h2, List.headD_cons, h4]
    simp
  · cases e <;> cases he
    have := new_invalid h
    rw [if_pos (by simpa using this)]
    exact .inl rfl
  · obtain ⟨h1, h2⟩ := setFileDataMode_size h
    rw [if_neg (by simpa using h2), h1]
  · cases e <;> cases he
    rw [if_pos (fileMode_invalid h)]
    exact .inl rfl
  rw [beValue_byte]
  refine keeps_bind (keeps_rdBlocks (fun size => chainLayout "1" .ERR_CHAINHASH1_INVALID <| chainLayout "2" .ERR_CHAINHASH2_INVALID <|
      endLayout (size % 2 ^ 32)) _ d) fun d =>
    keeps_bind (keeps_rdChainHash "1" _ _) fun c1 =>
    keeps_bind (keeps_setChain c1 _ _ d (fun c => DataHeader.clear { d with dh := { d.dh with ch1 := c } }) (fun _ => rfl) fun size =>
      chainLayout "2" .ERR_CHAINHASH2_INVALID <| endLayout (size % 2 ^ 32)) fun d =>
    keeps_bind (keeps_rdChainHash "2" _ _) fun c2 =>
    keeps_bind (keeps_setChain c2 _ _ d (fun c => DataHeader.clear { d with dh := { d.dh with ch2 := c } }) (fun _ => rfl) fun size =>
      endLayout (size % 2 ^ 32)) fun d =>
    keeps_bind (keeps_rd_mod "Password validator hash" _ _) fun v =>
    keeps_bind (K' := fun d => .field "Encrypted salt" (d.hashSize % 2 ^ 32) fun _ =>
      .field "Encrypted block count" 1 fun count => encLayout (beValue count)) (keeps_any fun d h => ?_) fun d =>
    keeps_bind (keeps_rd_mod "Encrypted salt" _ _) fun v =>
    keeps_bind (K' := fun _ => .field "Encrypted block count" 1 fun count => encLayout (beValue count)) (keeps_any fun d h => rfl) fun d =>
    keeps_bind (K' := fun _ => .field "Encrypted block count" 1 fun count => encLayout (beValue count))
      (keeps_catch (fun d h => rfl) fun e c i h he hm => ?_) fun d =>
    keeps_bind (keeps_rdByte "Encrypted block count" _) fun count => ?_
  · rw [setValidator_size h]
  · cases e <;> cases he
    exact .inr ⟨rfl, rfl⟩
  · rw [beValue_byte]
    exact keeps_bind (keeps_rdEncBlocks _ d) fun d => keeps_any fun _ _ => rfl

/-- what the parser says is what is to be said -/
theorem rdHeader_report (hs : Hashes) (r : Rand) (s : IStream) (he : s.eof = false) (c : ErrorCode)
    (i : List Byte) (h : rdHeader rdStream (fun s => s.rest.length) hs r s = .ok (.stop c i)) (hm : c ∈ headerCodes) :
    report s.rest = some (c, i) ∨ (c = .ERR_FILESIZE_INVALID ∧ i = [UInt8.ofNat s.rest.length]) := by
  refine ((keeps_bind (K := fun _ => .done) (x := [UInt8.ofNat s.rest.length]) (keeps_rdLong "File size" _) fun fileSize =>
    keeps_bind (keeps_rdLong "Header size" _) fun headerSize => ?_) s he).2 c i h hm
  rw [beValue_num8, beValue_num8]
  by_cases h1 : s.rest.length ≠ fileSize.toNat
  · rw [if_pos h1, if_pos (Ne.symm h1), UInt64.ofNat_toNat]
    exact keeps_fail _ _ _
  · have h1 := Classical.byContradiction h1
    rw [if_neg (show ¬ s.rest.length ≠ fileSize.toNat by omega), if_neg (show ¬ fileSize.toNat ≠ s.rest.length by omega)]
    have e : UInt64.ofNat s.rest.length = fileSize := by rw [h1, UInt64.ofNat_toNat]
    by_cases h2 : headerSize > fileSize
    · rw [if_pos h2, if_pos (by have := UInt64.lt_iff_toNat_lt.mp h2; omega), UInt64.ofNat_toNat, e]
      exact keeps_fail _ _ _
    · rw [if_neg h2, if_neg (by intro h3; exact h2 (UInt64.lt_iff_toNat_lt.mpr (by omega)))]
      rw [h1]
      exact keeps_bind (keeps_rdContent hs r fileSize) fun d => fun s => keeps_lift (fun _ _ => rfl) s

/-! ### the file that ends behind the salt -/

theorem report_byte {name : String} {next : List Byte → Layout} (b : Byte) {l : List Byte} :
    (Layout.field name 1 next).report ([b] ++ l) = (next [b]).report l := report_append rfl

theorem report_blocks (next : Layout) (rest : List Byte) : ∀ bs : List (Byte × List Byte), BlocksOk bs →
    (blocksLayout bs.length next).report (blockBytes bs ++ rest) = next.report rest := by
  intro bs
  induction bs with
  | nil => exact fun _ => rfl
  | cons b bs ih =>
    intro hb
    have h1 := hb b List.mem_cons_self
    have e : blockBytes (b :: bs) ++ rest = [b.1] ++ ([UInt8.ofNat b.2.length] ++ (b.2 ++ (blockBytes bs ++ rest))) := by
      simp [blockBytes]
    rw [e, List.length_cons, blocksLayout, report_byte, report_byte, beValue_byte, len_ofNat h1.2, report_append rfl]
    exact ih fun b h => hb b (List.mem_cons_of_mem _ h)

theorem report_chain (num : String) (code : ErrorCode) (next : Layout) (rest : List Byte) {c : ChainDesc} (hc : c.Valid) :
    (chainLayout num code next).report (c.bytes ++ rest) = next.report rest := by
  obtain ⟨m, n, e, -, h1, h2, hb⟩ := desc_typed hc
  have b2 : c.block.length ≤ 255 := Verif.blockLenOk_le hb
  have e1 : c.bytes ++ rest = [m.toByte] ++ (num8 n.toNat ++ ([UInt8.ofNat c.block.length] ++ (c.block ++ rest))) := by
    rw [e]; simp [ChainDesc.bytes]
  have b1 := beValue_num8 n
  rw [e1, chainLayout, report_byte, if_neg (by cases m <;> decide), report_append (length_num8 _), report_byte, beValue_byte, len_ofNat b2,
    if_neg (by cases m <;> simp [CHMode.num, blockLenOk, CHMode.toByte] at hb ⊢ <;> omega), b1,
    report_append (by cases m <;> simp [CHMode.num, blockLenOk, CHMode.toByte, fixedLen] at hb ⊢ <;> assumption),
    if_neg (by have : n.toNat ≤ 1000000000 := h2; omega)]

/-- what is to be said about a file that ends behind the salt -/
theorem report_ended {l : List Byte} {hmode : Byte} {bs : List (Byte × List Byte)} {c c' : ChainDesc} {rest : List Byte}
    (h : UpToBlocks l hmode bs (c.bytes ++ (c'.bytes ++ rest))) (hv : c.Valid) (hv' : c'.Valid) (hr : rest.length = 2 * digestSize hmode)
    (hl : l.length < 2 ^ 64) : report l = some (.ERR_NOT_ENOUGH_DATA, ascii "Encrypted block count") := by
  obtain ⟨hsize, count, ⟨eq, hk, hm, -, hb⟩, hn⟩ := h
  have e : report l = (headerLayout l.length).report (num8 l.length ++ (num8 hsize ++ ([1] ++ ([hmode] ++ ([count] ++
      (blockBytes bs ++ (c.bytes ++ (c'.bytes ++ rest)))))))) := by
    unfold report
    rw [show num8 l.length ++ (num8 hsize ++ ([1] ++ ([hmode] ++ ([count] ++
      (blockBytes bs ++ (c.bytes ++ (c'.bytes ++ rest))))))) = l from eq.symm]
  have b1 := beValue_num8 (UInt64.ofNat l.length)
  have b2 := beValue_num8 (UInt64.ofNat hsize)
  rw [ofNat_toNat64 hl] at b1
  rw [ofNat_toNat64 (n := hsize) (by omega)] at b2
  obtain ⟨v, s, rfl, h1, h2⟩ := split_digests hr
  rw [e, headerLayout, report_append (length_num8 _), report_append (length_num8 _), b1, b2, if_neg (by simp), if_neg (by omega),
    report_byte, report_byte, if_neg (by rcases hm with rfl | rfl | rfl <;> decide), if_neg (by simp), contentLayout,
    report_byte, beValue_byte, ← hn, report_blocks _ _ _ hb, report_chain _ _ _ _ hv, report_chain _ _ _ _ hv', List.headD_cons,
    report_append h1]
  have := report_append (name := "Encrypted salt") (next := fun _ => .field "Encrypted block count" 1 fun count => encLayout (beValue count))
    (l := []) h2
  rw [List.append_nil] at this
  rw [this]
  rfl

/-- the long text about sizes that differ -/
theorem size_text {hs : Hashes} {r : Rand} {s : IStream} (he : s.eof = false) {i : List Byte} (hn : beValue (s.rest.take 8) ≠ s.rest.length)
    (h : rdHeader rdStream (fun s => s.rest.length) hs r s = .ok (.stop .ERR_FILESIZE_INVALID i)) : 1 < i.length := by
  unfold rdHeader at h
  rw [say_bind] at h
  rcases h1 : rdLong rdStream (ascii "File size") s with (⟨n, s'⟩ | ⟨c, j⟩) | e | y <;> rw [h1] at h <;> try cases h
  · simp only [say_bind] at h
    rcases h2 : rdLong rdStream (ascii "Header size") s' with (⟨m, s''⟩ | ⟨c, j⟩) | e | y <;> simp only [h2] at h <;> try cases h
    · have h3 := ((transfer (forgets_rdLong forgets_rdStream (ascii "File size")) sim_rdLong he).1 n s' h1).1
      have h4 : s.rest.length ≠ n.toNat := by
        rcases rdLong_cases s.rest with h5 | ⟨k, l, h5, h6⟩
        · rw [h3] at h5; cases h5
        · rw [h3] at h6
          cases h6
          rw [h5, List.take_left' (length_num8 _), beValue_num8, ← h5] at hn
          exact Ne.symm hn
      simp only [if_pos h4] at h
      cases h
      simp [ascii]
    · cases (long_text h2).1
  · cases (long_text h1).1

/-- what `selectFile` says is about the path, or is what the parser says -/
theorem selectFile_source (hs : Hashes) (e : Env) (w : World) (p : Path) :
    All (fun r => Good (fun c i => NamesOr p c i ∨
      rdHeader rdStream (fun s => s.rest.length) hs (e.rand 0) (w.fs.openIn e p 1) = .ok (.stop c i)) never r.1) (selectFile hs e w p) := by
  refine all_noexcept (all_bind (getFileHandler_all e w.fs p 0) fun a ha => ?_)
  obtain ⟨f | _ | _, j⟩ := a
  · obtain ⟨-, hf⟩ := ha
    have hf := hf f rfl
    dsimp only
    by_cases h : f.isEmpty = true
    · rw [if_pos h]
      exact all_ok rfl
    · rw [if_neg h]
      refine all_bind (Q := fun r => Good (fun c i => NamesOr p c i ∨
        rdHeader rdStream (fun s => s.rest.length) hs (e.rand 0) (w.fs.openIn e p 1) = .ok (.stop c i)) never r.1) ?_ fun r hr => all_ok hr
      refine all_noexcept (all_bind (Q := Good (fun c i =>
        rdHeader rdStream (fun s => s.rest.length) hs (e.rand 0) (w.fs.openIn e p 1) = .ok (.stop c i)) never) ?_ fun a ha => ?_)
      · refine all_noexcept (all_bind (Q := fun a => ∀ c i, a = .stop c i →
          rdHeader rdStream (fun s => s.rest.length) hs (e.rand 0) (w.fs.openIn e p 1) = .ok (.stop c i)) ?_ fun a ha => ?_)
        · refine all_noexcept fun a ha c j hj => ?_
          rw [← hf, ha, hj]
        · cases a with
          | val d s => exact all_ok rfl
          | stop c j => exact all_ok (ha c j rfl)
      · obtain ⟨_ | _ | _, j⟩ := a
        · exact all_ok rfl
        · exact all_ok (.inr ha)
        · exact absurd ha id
  · exact all_ok (.inl ha.1)
  · exact absurd ha.1 id

end Verif.Tell
