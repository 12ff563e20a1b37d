import Verif.Model.Api

/- Reading a header does not depend on the random bytes its constructor asks for. -/
namespace Verif

/-- the same header with another salt -/
def DataHeader.salted (d : DataHeader) (x : Option Bytes) : DataHeader := { d with dh := { d.dh with encSalt := x } }

/-- the same outcome of a step, the header with another salt -/
def Step.salted {σ : Type} (x : Option Bytes) : Res (Step σ DataHeader) → Res (Step σ DataHeader)
  | .ok (.val d s) => .ok (.val (d.salted x) s)
  | y => y

/-- the same result, the header with another salt -/
def resSalted (x : Option Bytes) : Res DataHeader → Res DataHeader
  | .ok d => .ok (d.salted x)
  | y => y

namespace DataHeader
variable (d : DataHeader) (x : Option Bytes)

theorem salted_setChainHash1 (c : ChainHash) : (d.salted x).setChainHash1 c = resSalted x (d.setChainHash1 c) := by
  unfold setChainHash1
  split
  · rfl
  · cases c.assign <;> rfl

theorem salted_setChainHash2 (c : ChainHash) : (d.salted x).setChainHash2 c = resSalted x (d.setChainHash2 c) := by
  unfold setChainHash2
  split
  · rfl
  · cases c.assign <;> rfl

theorem salted_setFileDataMode (m : Byte) : (d.salted x).setFileDataMode m = resSalted x (d.setFileDataMode m) := by
  unfold setFileDataMode DataHeaderParts.setFileDataMode
  cases fileModeValid m <;> rfl

theorem salted_addDataBlock (b : DataBlock) : (d.salted x).addDataBlock b = resSalted x (d.addDataBlock b) := by
  unfold addDataBlock
  show (if d.dh.dec.length ≥ 255 then _ else _) = _
  split <;> rfl

theorem salted_setValid (b : Bytes) :
    (d.salted x).setValidPasswordHashBytes b = resSalted x (d.setValidPasswordHashBytes b) := by
  obtain ⟨⟨f, m, v, s, de, en, c1, c2⟩, n, hb, fz, bl⟩ := d
  simp only [setValidPasswordHashBytes, DataHeaderParts.setValidPasswordHash, DataHeaderParts.getHashSize, salted]
  cases m with
  | none => rfl
  | some m =>
    simp only [DataHeaderParts.get, Res.bind_ok]
    by_cases h : m.size = b.len
    · rw [if_pos h, if_pos h]; rfl
    · rw [if_neg h, if_neg h]; rfl

theorem salted_setEncSalt (b : Bytes) : (d.salted x).setEncSalt b = d.setEncSalt b := by
  obtain ⟨⟨f, m, v, s, de, en, c1, c2⟩, n, hb, fz, bl⟩ := d
  simp only [setEncSalt, DataHeaderParts.setEncSalt, DataHeaderParts.getHashSize, salted]

/-- a new header: either the mode is refused, or the salt is what the source delivers -/
theorem new_good {r r' : Rand} (hr : r.good = true) (hr' : r'.good = true) (mode : Byte) :
    (DataHeader.new mode r = .exn .invalidArgument ∧ DataHeader.new mode r' = .exn .invalidArgument) ∨
    ∃ d x, DataHeader.new mode r = .ok d ∧ DataHeader.new mode r' = .ok (d.salted x) := by
  unfold DataHeader.new DataHeaderParts.setHashMode
  cases h : HMode.ofByte mode with
  | none => exact .inl ⟨rfl, rfl⟩
  | some m =>
    refine .inr ?_
    have hf : ∀ q : Rand, q.good = true → (Bytes.empty m.size).fillrandom q = .ok ⟨q.take m.size, m.size⟩ := by
      intro q hq
      have : m.size < 2 ^ 32 := by cases m <;> decide
      have h0 : m.size % 4294967296 < 2147483648 := by cases m <;> decide
      simp only [Bytes.fillrandom, Bytes.randomBytes, Bytes.empty, List.length_nil, Nat.sub_zero, hq]
      simp [Nat.not_le.mpr h0, Nat.not_le.mpr this, Res.noexcept]
    have hs : ∀ (q : Rand) (p : DataHeaderParts), p.hashMode = some m →
        p.setEncSalt ⟨q.take m.size, m.size⟩ = .ok { p with encSalt := some ⟨q.take m.size, m.size⟩ } := by
      intro q p hp
      have : m.size = (⟨q.take m.size, m.size⟩ : Bytes).len := by simp [Bytes.len, Rand.take]
      simp only [DataHeaderParts.setEncSalt, DataHeaderParts.getHashSize, hp, DataHeaderParts.get, Res.bind_ok, if_pos this]
    refine ⟨⟨{ DataHeaderParts.empty with hashMode := some m, encSalt := some ⟨r.take m.size, m.size⟩ }, m.size,
      Bytes.empty 0, none, 0⟩, some ⟨r'.take m.size, m.size⟩, ?_, ?_⟩
    · simp only [Res.bind_ok, DataHeaderParts.getHashSize, DataHeaderParts.get, hf r hr]
      rw [hs r _ rfl]; rfl
    · simp only [Res.bind_ok, DataHeaderParts.getHashSize, DataHeaderParts.get, hf r' hr']
      rw [hs r' _ rfl]; rfl

/-- without a source: the mode is refused, or the process dies -/
theorem new_bad {r : Rand} (hr : r.good = false) (mode : Byte) :
    DataHeader.new mode r = (match HMode.ofByte mode with | none => .exn .invalidArgument | some _ => .fatal .terminate) := by
  unfold DataHeader.new DataHeaderParts.setHashMode
  cases h : HMode.ofByte mode with
  | none => rfl
  | some m =>
    have : (Bytes.empty m.size).fillrandom r = .fatal .terminate := by
      simp only [Bytes.fillrandom, Bytes.randomBytes, hr, or_true, if_true]
      rfl
    simp only [Res.bind_ok, DataHeaderParts.getHashSize, DataHeaderParts.get, this]
    rfl

end DataHeader

namespace HeaderParse
variable {σ α β : Type}

theorem bind_same (p : Par σ α) {f f' : α → Par σ β} (h : ∀ a s, f' a s = f a s) (s : σ) : (p >>= f') s = (p >>= f) s := by
  rw [funext fun a => funext fun s => h a s]

theorem bind_salted {p p' : Par σ DataHeader} {x : Option Bytes} {f f' : DataHeader → Par σ β}
    (hp : ∀ s, p' s = Step.salted x (p s)) (h : ∀ d s, f' (d.salted x) s = f d s) (s : σ) : (p' >>= f') s = (p >>= f) s := by
  show Par.bind p' f' s = Par.bind p f s
  unfold Par.bind
  rw [hp]
  cases p s with
  | ok y =>
    cases y with
    | val d s' => exact h d s'
    | stop c => rfl
  | exn e => rfl
  | fatal e => rfl

theorem onExn_salted (y : Res DataHeader) (x : Option Bytes) (h : Exn → Option ErrorCode) (s : σ) :
    Par.onExn (Par.lift (resSalted x y)) h s = Step.salted x (Par.onExn (Par.lift y) h s) := by
  cases y with
  | ok d => rfl
  | exn e =>
    show Par.onExn (Par.lift (.exn e)) h s = _
    simp only [Par.onExn, Par.lift]
    cases h e <;> rfl
  | fatal e => rfl

theorem salted_trans (x : Option Bytes) (p p' : Par σ α) (f f' : α → Par σ DataHeader) (hp : ∀ s, p' s = p s)
    (h : ∀ a s, f' a s = Step.salted x (f a s)) (s : σ) : (p' >>= f') s = Step.salted x ((p >>= f) s) := by
  show Par.bind p' f' s = Step.salted x (Par.bind p f s)
  unfold Par.bind
  rw [hp]
  cases p s with
  | ok y =>
    cases y with
    | val d s' => exact h d s'
    | stop c => rfl
  | exn e => rfl
  | fatal e => rfl

theorem salted_chain (x : Option Bytes) (p p' : Par σ DataHeader) (f f' : DataHeader → Par σ DataHeader)
    (hp : ∀ s, p' s = Step.salted x (p s)) (h : ∀ d s, f' (d.salted x) s = Step.salted x (f d s)) (s : σ) :
    (p' >>= f') s = Step.salted x ((p >>= f) s) := by
  show Par.bind p' f' s = Step.salted x (Par.bind p f s)
  unfold Par.bind
  rw [hp]
  cases p s with
  | ok y =>
    cases y with
    | val d s' => exact h d s'
    | stop c => rfl
  | exn e => rfl
  | fatal e => rfl

theorem addBlock_salted (d : DataHeader) (x : Option Bytes) (y : Res DataBlock) (s : σ) :
    Par.lift (do (d.salted x).addDataBlock (← y)) s = Step.salted x (Par.lift (do d.addDataBlock (← y)) s) := by
  cases y with
  | ok b =>
    show Par.lift ((d.salted x).addDataBlock b) s = Step.salted x (Par.lift (d.addDataBlock b) s)
    rw [DataHeader.salted_addDataBlock]
    cases d.addDataBlock b <;> rfl
  | exn e => rfl
  | fatal e => rfl

section stream
variable (rd : (cap n : Nat) → Par σ (List Byte))

theorem rdBlocks_salted (x : Option Bytes) (k : Nat) : ∀ (d : DataHeader) (s : σ),
    rdBlocks rd k (d.salted x) s = Step.salted x (rdBlocks rd k d s) := by
  induction k with
  | zero => intro d s; rfl
  | succ k ih =>
    intro d s
    unfold rdBlocks
    refine salted_trans x _ _ _ _ (fun _ => rfl) (fun type s => ?_) s
    refine salted_trans x _ _ _ _ (fun _ => rfl) (fun len s => ?_) s
    refine salted_trans x _ _ _ _ (fun _ => rfl) (fun data s => ?_) s
    exact salted_chain x _ _ _ _ (addBlock_salted d x _) (fun d s => ih d s) s

/-- with a working source the parser's answer does not depend on it -/
theorem rdContent_rand (hs : Hashes) {r r' : Rand} (hr : r.good = true) (hr' : r'.good = true) (n : UInt64) (s : σ) :
    rdContent rd hs r' n s = rdContent rd hs r n s := by
  unfold rdContent
  refine bind_same _ (fun fmode s => ?_) s
  refine bind_same _ (fun hmode s => ?_) s
  rcases DataHeader.new_good hr hr' hmode with ⟨h1, h2⟩ | ⟨d, x, h1, h2⟩
  · rw [h1, h2]
  · rw [h1, h2]
    refine bind_salted (x := x) (fun _ => by rfl) (fun d s => ?_) s
    refine bind_salted (x := x) (fun s => by rw [DataHeader.salted_setFileDataMode, onExn_salted]) (fun d s => ?_) s
    refine bind_same _ (fun count s => ?_) s
    refine bind_salted (x := x) (fun s => rdBlocks_salted rd x _ d s) (fun d s => ?_) s
    refine bind_same _ (fun c1 s => ?_) s
    refine bind_salted (x := x) (fun s => by rw [DataHeader.salted_setChainHash1, onExn_salted]) (fun d s => ?_) s
    refine bind_same _ (fun c2 s => ?_) s
    refine bind_salted (x := x) (fun s => by rw [DataHeader.salted_setChainHash2, onExn_salted]) (fun d s => ?_) s
    refine bind_same _ (fun v s => ?_) s
    refine bind_salted (x := x)
      (fun s => by rw [DataHeader.salted_setValid, onExn_salted]; rfl) (fun d s => ?_) s
    refine bind_same _ (fun v s => ?_) s
    rw [DataHeader.salted_setEncSalt]
    rfl

end stream

section memory
variable (file : Bytes)

theorem cpBlocks_salted (x : Option Bytes) (k : Nat) : ∀ (d : DataHeader) (s : Nat),
    cpBlocks file k (d.salted x) s = Step.salted x (cpBlocks file k d s) := by
  induction k with
  | zero => intro d s; rfl
  | succ k ih =>
    intro d s
    unfold cpBlocks
    refine salted_trans x _ _ _ _ (fun _ => rfl) (fun type s => ?_) s
    refine salted_trans x _ _ _ _ (fun _ => rfl) (fun len s => ?_) s
    refine salted_trans x _ _ _ _ (fun _ => rfl) (fun data s => ?_) s
    exact salted_chain x _ _ _ _ (addBlock_salted d x _) (fun d s => ih d s) s

/-- with a working source the parser's answer does not depend on it -/
theorem cpContent_rand (hs : Hashes) {r r' : Rand} (hr : r.good = true) (hr' : r'.good = true) (n : UInt64) (s : Nat) :
    cpContent file hs r' n s = cpContent file hs r n s := by
  unfold cpContent
  refine bind_same _ (fun fmode s => ?_) s
  refine bind_same _ (fun hmode s => ?_) s
  rcases DataHeader.new_good hr hr' hmode with ⟨h1, h2⟩ | ⟨d, x, h1, h2⟩
  · rw [h1, h2]
  · rw [h1, h2]
    refine bind_salted (x := x) (fun _ => by rfl) (fun d s => ?_) s
    refine bind_salted (x := x) (fun s => by rw [DataHeader.salted_setFileDataMode, onExn_salted]) (fun d s => ?_) s
    refine bind_same _ (fun count s => ?_) s
    refine bind_salted (x := x) (fun s => cpBlocks_salted file x _ d s) (fun d s => ?_) s
    refine bind_same _ (fun c1 s => ?_) s
    refine bind_salted (x := x) (fun s => by rw [DataHeader.salted_setChainHash1, onExn_salted]) (fun d s => ?_) s
    refine bind_same _ (fun c2 s => ?_) s
    refine bind_salted (x := x) (fun s => by rw [DataHeader.salted_setChainHash2, onExn_salted]) (fun d s => ?_) s
    refine bind_same _ (fun v s => ?_) s
    refine bind_salted (x := x)
      (fun s => by rw [DataHeader.salted_setValid, onExn_salted]; rfl) (fun d s => ?_) s
    refine bind_same _ (fun v s => ?_) s
    rw [DataHeader.salted_setEncSalt]
    rfl

end memory

theorem setHeaderStream_rand (hs : Hashes) {r r' : Rand} (hr : r.good = true) (hr' : r'.good = true) (s : IStream) :
    setHeaderStream hs r' s = setHeaderStream hs r s := by
  unfold setHeaderStream rdHeader
  rw [show rdContent rdStream hs r' = rdContent rdStream hs r from
    funext fun n => funext fun s => rdContent_rand rdStream hs hr hr' n s]

theorem setHeaderMem_rand (hs : Hashes) {r r' : Rand} (hr : r.good = true) (hr' : r'.good = true) (file : Bytes) :
    setHeaderMem file hs r' = setHeaderMem file hs r := by
  unfold setHeaderMem cpHeader
  rw [show cpContent file hs r' = cpContent file hs r from
    funext fun n => funext fun s => cpContent_rand file hs hr hr' n s]

end HeaderParse
end Verif
