import Verif.Lemmas.Log

/-
What the work on passwords, keys and data does, apart from the bytes themselves, depends on lengths only: two runs whose
inputs have the same lengths end in the same way, with results of the same lengths, and log the same lines.
-/
namespace Verif

/-- two runs end in the same way, with related values -/
def RRel {α β : Type} (R : α → β → Prop) : Res α → Res β → Prop
  | .ok a, .ok b => R a b
  | .exn x, .exn y => x = y
  | .fatal x, .fatal y => x = y
  | _, _ => False

namespace RRel
variable {α β γ δ : Type} {R : α → β → Prop} {S : γ → δ → Prop}

theorem bind {x : Res α} {y : Res β} {f : α → Res γ} {g : β → Res δ} (h : RRel R x y) (hf : ∀ a b, R a b → RRel S (f a) (g b)) :
    RRel S (x >>= f) (y >>= g) := by
  cases x <;> cases y <;> first
    | exact h.elim
    | exact hf _ _ h
    | exact h

theorem refl {x : Res α} : RRel (fun a b => a = b) x x := by
  cases x <;> rfl

theorem mono {x : Res α} {y : Res β} {R' : α → β → Prop} (h : RRel R x y) (hr : ∀ a b, R a b → R' a b) : RRel R' x y := by
  cases x <;> cases y <;> first
    | exact h.elim
    | exact hr _ _ h
    | exact h

theorem noexcept {x : Res α} {y : Res β} (h : RRel R x y) : RRel R x.noexcept y.noexcept := by
  cases x <;> cases y <;> first
    | exact h.elim
    | exact h
    | rfl

theorem ite {p q : Prop} [Decidable p] [Decidable q] {x x' : Res α} {y y' : Res β} (hp : p ↔ q) (h : RRel R x y) (h' : RRel R x' y') :
    RRel R (if p then x else x') (if q then y else y') := by
  by_cases hq : q
  · rw [if_pos hq, if_pos (hp.2 hq)]; exact h
  · rw [if_neg hq, if_neg (fun a => hq (hp.1 a))]; exact h'

end RRel

/-- byte containers of the same length and capacity -/
structure BLen (a b : Bytes) : Prop where
  len : a.data.length = b.data.length
  cap : a.cap = b.cap

namespace BLen
theorem refl (a : Bytes) : BLen a a := ⟨rfl, rfl⟩

variable {a b c d : Bytes}

theorem len' (h : BLen a b) : a.len = b.len := h.len

theorem hash (H : HashFn) (a b : Bytes) (n : Nat) : RRel BLen (H.hash a n) (H.hash b n) := by
  unfold HashFn.hash
  exact RRel.ite Iff.rfl rfl ⟨by simp, rfl⟩

theorem hashStr (H : HashFn) (a b : List Byte) (n : Nat) : RRel BLen (H.hashStr a n) (H.hashStr b n) := by
  unfold HashFn.hashStr
  exact RRel.ite Iff.rfl rfl ⟨by simp, rfl⟩

theorem add (h : BLen a b) (k : BLen c d) : RRel BLen (a.add c) (b.add d) := by
  unfold Bytes.add
  rw [h.len, k.len]
  exact RRel.ite Iff.rfl rfl ⟨by simp [h.len, k.len], h.cap⟩

theorem sub (h : BLen a b) (k : BLen c d) : RRel BLen (a.sub c) (b.sub d) := by
  unfold Bytes.sub
  rw [h.len, k.len]
  exact RRel.ite Iff.rfl rfl ⟨by simp [h.len, k.len], h.cap⟩

theorem addcopyToBytes (h : BLen a b) (k : BLen c d) : RRel BLen (a.addcopyToBytes c) (b.addcopyToBytes d) := by
  unfold Bytes.addcopyToBytes
  rw [h.len, k.len, k.cap]
  exact RRel.ite Iff.rfl rfl ⟨by simp [h.len, k.len], rfl⟩

theorem copySubBytes (h : BLen a b) (i j : Nat) : RRel BLen (a.copySubBytes i j) (b.copySubBytes i j) := by
  unfold Bytes.copySubBytes
  rw [h.len]
  exact RRel.ite Iff.rfl rfl (RRel.ite Iff.rfl rfl ⟨by simp [h.len], rfl⟩)

theorem setBytes (h : BLen a b) (l : List Byte) : RRel BLen (a.setBytes l) (b.setBytes l) := by
  unfold Bytes.setBytes
  rw [h.cap]
  exact RRel.ite Iff.rfl rfl ⟨rfl, rfl⟩

theorem addBytes (h : BLen a b) (l : List Byte) : RRel BLen (a.addBytes l) (b.addBytes l) := by
  unfold Bytes.addBytes
  rw [h.cap, h.len]
  exact RRel.ite Iff.rfl rfl ⟨by simp [h.len], rfl⟩

theorem addSize (h : BLen a b) (n : Nat) : BLen (a.addSize n) (b.addSize n) :=
  ⟨h.len, by show a.cap + n = b.cap + n; rw [h.cap]⟩

theorem copyExtra (h : BLen a b) (n : Nat) : BLen (a.copyExtra n) (b.copyExtra n) :=
  ⟨h.len, by show a.cap + n = b.cap + n; rw [h.cap]⟩

end BLen

/-! ### Chain hashes -/

/-- related loop states: `none` is a timeout -/
def ORel {α β : Type} (R : α → β → Prop) : Option α → Option β → Prop
  | some a, some b => R a b
  | none, none => True
  | _, _ => False

theorem chLoop_rel {σ τ : Type} {R : σ → τ → Prop} {f : σ → Res σ} {g : τ → Res τ} (hb : ∀ a b, R a b → RRel R (f a) (g b))
    (timeout : Nat) (clk : Nat → Nat) (n i : Nat) {s : σ} {t : τ} (h : R s t) :
    RRel (ORel R) (chLoop timeout clk f n i s) (chLoop timeout clk g n i t) := by
  induction n generalizing i s t with
  | zero => exact h
  | succ n ih =>
    refine (hb s t h).bind fun a b hab => ?_
    exact RRel.ite Iff.rfl (RRel.ite Iff.rfl trivial (ih _ hab)) (ih _ hab)

/-- outcomes of a chain hash with the same meaning -/
def OutRel {α β : Type} (R : α → β → Prop) : Out α → Out β → Prop
  | .success a, .success b => R a b
  | .fail c, .fail d => c = d
  | .timeout, .timeout => True
  | _, _ => False

theorem chOut_rel {σ τ : Type} {R : σ → τ → Prop} {f : σ → Bytes} {g : τ → Bytes} (hfg : ∀ a b, R a b → BLen (f a) (g b))
    {x : Option σ} {y : Option τ} (h : ORel R x y) : RRel (OutRel BLen) (.ok (chOut f x)) (.ok (chOut g y)) := by
  cases x <;> cases y <;> first
    | exact h.elim
    | exact hfg _ _ h
    | trivial

/-- containers with a counter -/
def BLenC (a b : Bytes × UInt64) : Prop := BLen a.1 b.1 ∧ a.2 = b.2

theorem BLen.count {a b : Bytes} (h : BLen a b) (n : UInt64) : BLenC (a, n) (b, n) := ⟨h, rfl⟩

section bodies
open PwFunc

theorem addString_rel {a b : Bytes} (h : BLen a b) (l : List Byte) : RRel BLen (addStringToBytes l a) (addStringToBytes l b) := by
  unfold addStringToBytes
  rw [h.len, h.cap]
  exact RRel.ite Iff.rfl rfl (h.addBytes l)

theorem bodyNormal_rel (H : HashFn) (a b : Bytes) (_ : BLen a b) : RRel BLen (bodyNormal H a) (bodyNormal H b) := BLen.hash H a b 0

theorem bodyConst_rel (H : HashFn) (salt : List Byte) (a b : Bytes) (h : BLen a b) :
    RRel BLen (bodyConst H salt a) (bodyConst H salt b) :=
  (addString_rel h _).bind fun _ _ _ => BLen.hash H _ _ _

theorem bodyCountStr_rel (H : HashFn) (a b : Bytes × UInt64) (h : BLenC a b) :
    RRel BLenC (bodyCountStr H a) (bodyCountStr H b) := by
  unfold bodyCountStr
  rw [h.2]
  exact (addString_rel h.1 _).bind fun _ _ _ => (BLen.hash H _ _ _).bind fun _ _ k => ⟨k, rfl⟩

theorem bodyCountBytes_rel (H : HashFn) (a b : Bytes × UInt64) (h : BLenC a b) :
    RRel BLenC (bodyCountBytes H a) (bodyCountBytes H b) := by
  unfold bodyCountBytes
  rw [h.2]
  exact (addString_rel h.1 _).bind fun _ _ _ => (BLen.hash H _ _ _).bind fun _ _ k => ⟨k, rfl⟩

theorem bodyConstCountStr_rel (H : HashFn) (salt : List Byte) (a b : Bytes × UInt64) (h : BLenC a b) :
    RRel BLenC (bodyConstCountStr H salt a) (bodyConstCountStr H salt b) := by
  unfold bodyConstCountStr
  rw [h.2]
  exact (addString_rel h.1 _).bind fun _ _ _ => (BLen.hash H _ _ _).bind fun _ _ k => ⟨k, rfl⟩

theorem bodyConstCountBytes_rel (H : HashFn) (salt : List Byte) (a b : Bytes × UInt64) (h : BLenC a b) :
    RRel BLenC (bodyConstCountBytes H salt a) (bodyConstCountBytes H salt b) := by
  unfold bodyConstCountBytes
  rw [h.2]
  exact (addString_rel h.1 _).bind fun _ _ _ => (BLen.hash H _ _ _).bind fun _ _ k => ⟨k, rfl⟩

theorem bodyQuadStr_rel (H : HashFn) (x y z : UInt64) (a b : Bytes × UInt64) (h : BLenC a b) :
    RRel BLenC (bodyQuadStr H x y z a) (bodyQuadStr H x y z b) := by
  unfold bodyQuadStr
  rw [h.2]
  exact (addString_rel h.1 _).bind fun _ _ _ => (BLen.hash H _ _ _).bind fun _ _ k => ⟨k, rfl⟩

theorem bodyQuadBytes_rel (H : HashFn) (x y z : UInt64) (a b : Bytes × UInt64) (h : BLenC a b) :
    RRel BLenC (bodyQuadBytes H x y z a) (bodyQuadBytes H x y z b) := by
  unfold bodyQuadBytes
  rw [h.2]
  exact (addString_rel h.1 _).bind fun _ _ _ => (BLen.hash H _ _ _).bind fun _ _ k => ⟨k, rfl⟩

end bodies

/-- A chain hash of a password ends in the same way for every password, with hashes of the same length. -/
theorem performStr_rel (ch : ChainHash) (H : HashFn) (pw pw' : List Byte) (timeout : Nat) (clk : Nat → Nat) :
    RRel (OutRel BLen) (ChainHashModes.performStr ch H pw timeout clk) (ChainHashModes.performStr ch H pw' timeout clk) := by
  unfold ChainHashModes.performStr
  refine RRel.refl.bind fun m _ e => ?_
  subst e
  refine RRel.refl.bind fun n _ e => ?_
  subst e
  refine RRel.refl.bind fun d _ e => ?_
  subst e
  cases m with
  | normal =>
    exact ((BLen.hashStr H _ _ _).bind fun _ _ h => (chLoop_rel (bodyNormal_rel H) _ _ _ _ h).bind fun _ _ k =>
      chOut_rel (fun _ _ h => h) k).noexcept
  | constSalt =>
    refine RRel.refl.bind fun s _ e => ?_
    subst e
    exact ((BLen.hashStr H _ _ _).bind fun _ _ h => (chLoop_rel (bodyConst_rel H _) _ _ _ _ h).bind fun _ _ k =>
      chOut_rel (fun _ _ h => h) k).noexcept
  | count =>
    refine RRel.refl.bind fun s _ e => ?_
    subst e
    refine RRel.refl.bind fun sn _ e => ?_
    subst e
    exact ((BLen.hashStr H _ _ _).bind fun _ _ h => (chLoop_rel (bodyCountStr_rel H) _ _ _ _ (h.count _)).bind fun _ _ k =>
      chOut_rel (fun _ _ h => h.1) k).noexcept
  | constCount =>
    refine RRel.refl.bind fun s _ e => ?_
    subst e
    refine RRel.refl.bind fun sn _ e => ?_
    subst e
    refine RRel.refl.bind fun x _ e => ?_
    subst e
    exact ((BLen.hashStr H _ _ _).bind fun _ _ h => (chLoop_rel (bodyConstCountStr_rel H _) _ _ _ _ (h.count _)).bind fun _ _ k =>
      chOut_rel (fun _ _ h => h.1) k).noexcept
  | quad =>
    refine RRel.refl.bind fun s _ e => ?_
    subst e
    refine RRel.refl.bind fun sn _ e => ?_
    subst e
    refine RRel.refl.bind fun x _ e => ?_
    subst e
    refine RRel.refl.bind fun a _ e => ?_
    subst e
    refine RRel.refl.bind fun x _ e => ?_
    subst e
    refine RRel.refl.bind fun b _ e => ?_
    subst e
    refine RRel.refl.bind fun x _ e => ?_
    subst e
    refine RRel.refl.bind fun c _ e => ?_
    subst e
    exact ((BLen.hashStr H _ _ _).bind fun _ _ h => (chLoop_rel (bodyQuadStr_rel H _ _ _) _ _ _ _ (h.count _)).bind fun _ _ k =>
      chOut_rel (fun _ _ h => h.1) k).noexcept

theorem performBytes_rel (ch : ChainHash) (H : HashFn) {x y : Bytes} (hxy : BLen x y) (timeout : Nat) (clk : Nat → Nat) :
    RRel (OutRel BLen) (ChainHashModes.performBytes ch H x timeout clk) (ChainHashModes.performBytes ch H y timeout clk) := by
  unfold ChainHashModes.performBytes
  refine RRel.refl.bind fun m _ e => ?_
  subst e
  refine RRel.refl.bind fun n _ e => ?_
  subst e
  refine RRel.refl.bind fun d _ e => ?_
  subst e
  cases m with
  | normal =>
    exact ((chLoop_rel (bodyNormal_rel H) _ _ _ _ hxy).bind fun _ _ k => chOut_rel (fun _ _ h => h) k).noexcept
  | constSalt =>
    refine RRel.refl.bind fun s _ e => ?_
    subst e
    exact ((chLoop_rel (bodyConst_rel H _) _ _ _ _ (hxy.copyExtra _)).bind fun _ _ k => chOut_rel (fun _ _ h => h) k).noexcept
  | count =>
    refine RRel.refl.bind fun s _ e => ?_
    subst e
    refine RRel.refl.bind fun sn _ e => ?_
    subst e
    exact ((chLoop_rel (bodyCountBytes_rel H) _ _ _ _ ((hxy.copyExtra _).count _)).bind fun _ _ k =>
      chOut_rel (fun _ _ h => h.1) k).noexcept
  | constCount =>
    refine RRel.refl.bind fun s _ e => ?_
    subst e
    refine RRel.refl.bind fun sn _ e => ?_
    subst e
    refine RRel.refl.bind fun x _ e => ?_
    subst e
    exact ((chLoop_rel (bodyConstCountBytes_rel H _) _ _ _ _ ((hxy.copyExtra _).count _)).bind fun _ _ k =>
      chOut_rel (fun _ _ h => h.1) k).noexcept
  | quad =>
    refine RRel.refl.bind fun s _ e => ?_
    subst e
    refine RRel.refl.bind fun sn _ e => ?_
    subst e
    refine RRel.refl.bind fun x _ e => ?_
    subst e
    refine RRel.refl.bind fun a _ e => ?_
    subst e
    refine RRel.refl.bind fun x _ e => ?_
    subst e
    refine RRel.refl.bind fun b _ e => ?_
    subst e
    refine RRel.refl.bind fun x _ e => ?_
    subst e
    refine RRel.refl.bind fun c _ e => ?_
    subst e
    exact ((chLoop_rel (bodyQuadBytes_rel H _ _ _) _ _ _ _ ((hxy.copyExtra _).count _)).bind fun _ _ k =>
      chOut_rel (fun _ _ h => h.1) k).noexcept

/-! ### Chains of blocks -/

structure LBlockRel (a b : Block) : Prop where
  data : BLen a.data b.data
  salt : BLen a.salt b.salt
  decHash : BLen a.decHash b.decHash

structure LIterRel (a b : SaltIter) : Prop where
  first : a.first = b.first
  hash : BLen a.hash b.hash
  salt : BLen a.salt b.salt

structure LChainRel (a b : Chain) : Prop where
  cur : ORel LBlockRel a.cur b.cur
  result : ORel BLen a.result b.result
  iter : LIterRel a.iter b.iter
  height : a.height = b.height

namespace LBlockRel
variable {a b : Block}

theorem free (H : HashFn) (h : LBlockRel a b) : a.getFreeSpace H = b.getFreeSpace H := by
  unfold Block.getFreeSpace; rw [h.data.len']

theorem getHash (H : HashFn) (h : LBlockRel a b) : RRel BLen (a.getHash H) (b.getHash H) := by
  unfold Block.getHash
  rw [h.free H, h.decHash.len']
  exact RRel.ite Iff.rfl rfl (RRel.ite Iff.rfl rfl h.decHash)

theorem new (H : HashFn) {s t : Bytes} (h : BLen s t) : RRel LBlockRel (Block.new H s) (Block.new H t) := by
  unfold Block.new
  rw [h.len']
  exact RRel.ite Iff.rfl rfl ⟨BLen.refl _, h, BLen.refl _⟩

theorem addData (dir : Dir) (H : HashFn) (h : LBlockRel a b) {s t : Bytes} (k : BLen s t) :
    RRel LBlockRel (a.addData dir H s) (b.addData dir H t) := by
  unfold Block.addData
  rw [h.free H, k.len']
  refine RRel.ite Iff.rfl rfl ((k.addcopyToBytes h.data).bind fun x y hxy => ?_)
  have hb : LBlockRel { a with data := x } { b with data := y } := ⟨hxy, h.salt, h.decHash⟩
  refine RRel.ite (by rw [hb.free H]) (RRel.ite (by show a.decHash.len ≠ 0 ↔ b.decHash.len ≠ 0; rw [h.decHash.len']) hb ?_) hb
  cases dir with
  | enc => exact (BLen.hash H _ _ _).bind fun _ _ p => (hxy.add h.salt).bind fun _ _ q => ⟨q, h.salt, p⟩
  | dec => exact (hxy.sub h.salt).bind fun _ _ q => (BLen.hash H _ _ _).bind fun _ _ p => ⟨q, h.salt, p⟩

theorem getResult (dir : Dir) (H : HashFn) (h : LBlockRel a b) : RRel BLen (a.getResult dir H) (b.getResult dir H) := by
  unfold Block.getResult
  rw [h.free H, h.data.len']
  refine RRel.noexcept (RRel.ite Iff.rfl ((h.salt.copySubBytes _ _).bind fun _ _ p => ?_) h.data)
  cases dir with
  | enc => exact h.data.add p
  | dec => exact h.data.sub p

end LBlockRel

theorem LIterRel.next (H : HashFn) {a b : SaltIter} (h : LIterRel a b) {s t : Bytes} (k : BLen s t) :
    RRel (fun p q => BLen p.1 q.1 ∧ LIterRel p.2 q.2) (a.next H s) (b.next H t) := by
  unfold SaltIter.next
  refine RRel.bind (R := BLen) ?_ fun x y hxy => ?_
  · unfold SaltIter.seed
    rw [h.first]
    exact RRel.ite Iff.rfl (k.setBytes _) k
  · rw [hxy.len']
    refine RRel.ite Iff.rfl rfl ?_
    refine (h.hash.add h.salt).bind fun _ _ p => (p.add hxy).bind fun _ _ _ => (BLen.hash H _ _ _).bind fun _ _ q => ?_
    refine (q.add h.salt).bind fun _ _ p => (p.add hxy).bind fun _ _ _ => (BLen.hash H _ _ _).bind fun _ _ r => ?_
    exact (q.add r).bind fun _ _ _ => (BLen.hash H _ _ _).bind fun _ _ o => ⟨o, rfl, q, r⟩

namespace LChainRel
variable {a b : Chain}

theorem new (H : HashFn) {s t : Bytes} (h : BLen s t) (salt : Bytes) : RRel LChainRel (Chain.new H s salt) (Chain.new H t salt) := by
  unfold Chain.new SaltIter.init
  rw [h.len']
  refine RRel.bind (R := LIterRel) (RRel.ite Iff.rfl rfl (RRel.ite Iff.rfl rfl ⟨rfl, h, BLen.refl _⟩)) fun _ _ k => ?_
  exact ⟨trivial, BLen.refl _, k, rfl⟩

theorem free (H : HashFn) (h : LChainRel a b) : a.freeSpace H = b.freeSpace H := by
  unfold Chain.freeSpace
  have hc := h.cur
  revert hc
  cases a.cur <;> cases b.cur <;> intro hc
  · rfl
  · exact hc.elim
  · exact hc.elim
  · simp only [LBlockRel.free H hc]

theorem dataSize (H : HashFn) (h : LChainRel a b) : a.getDataSize H = b.getDataSize H := by
  unfold Chain.getDataSize Chain.getHeight
  rw [h.free H, h.height]

theorem addBlock (dir : Dir) (H : HashFn) (h : LChainRel a b) : RRel LChainRel (a.addBlock dir H) (b.addBlock dir H) := by
  unfold Chain.addBlock
  rw [h.free H]
  refine RRel.ite Iff.rfl h ?_
  obtain ⟨ac, ar, ai, ah⟩ := a
  obtain ⟨bc, br, bi, bh⟩ := b
  obtain ⟨hc, hr, hi, hh⟩ := h
  cases ac <;> cases bc <;> try exact hc.elim
  · refine (hi.next H (BLen.refl _)).bind fun p q hpq => (LBlockRel.new H hpq.1).bind fun _ _ k => ?_
    exact ⟨k, hr, hpq.2, hh⟩
  · refine (LBlockRel.getHash H hc).bind fun _ _ hg => (hi.next H hg).bind fun p q hpq => (LBlockRel.getResult dir H hc).bind fun x y hxy => ?_
    cases ar <;> cases br <;> try exact hr.elim
    · rfl
    · exact (hxy.addcopyToBytes hr).bind fun _ _ k => (LBlockRel.new H hpq.1).bind fun _ _ l => ⟨l, k, hpq.2, hh⟩

theorem curAdd (dir : Dir) (H : HashFn) (h : LChainRel a b) {s t : Bytes} (k : BLen s t) :
    RRel LChainRel (a.curAdd dir H s) (b.curAdd dir H t) := by
  obtain ⟨ac, ar, ai, ah⟩ := a
  obtain ⟨bc, br, bi, bh⟩ := b
  obtain ⟨hc, hr, hi, hh⟩ := h
  cases ac <;> cases bc <;> try exact hc.elim
  · rfl
  · exact (LBlockRel.addData dir H hc k).bind fun _ _ l => ⟨l, hr, hi, hh⟩

theorem start (dir : Dir) (H : HashFn) (h : LChainRel a b) (n : Nat) : RRel LChainRel (a.start dir H n) (b.start dir H n) := by
  obtain ⟨ac, ar, ai, ah⟩ := a
  obtain ⟨bc, br, bi, bh⟩ := b
  obtain ⟨hc, hr, hi, hh⟩ := h
  cases ar <;> cases br <;> try exact hr.elim
  · rfl
  · cases ac <;> cases bc <;> try exact hc.elim
    · exact addBlock dir H ⟨hc, BLen.addSize hr n, hi, hh⟩
    · exact ⟨hc, BLen.addSize hr n, hi, hh⟩

theorem addLoop (dir : Dir) (H : HashFn) {s t : Bytes} (k : BLen s t) (fuel written : Nat) {a b : Chain} (h : LChainRel a b) :
    RRel LChainRel (Chain.addLoop dir H s fuel written a) (Chain.addLoop dir H t fuel written b) := by
  induction fuel generalizing written a b with
  | zero => rfl
  | succ n ih =>
    unfold Chain.addLoop
    rw [k.len', h.free H]
    refine (k.copySubBytes _ _).bind fun x y hxy => (h.curAdd dir H hxy).bind fun c d hcd => ?_
    rw [hxy.len']
    exact RRel.ite Iff.rfl ((hcd.addBlock dir H).bind fun _ _ hl => ih _ hl) hcd

theorem addData (dir : Dir) (H : HashFn) (h : LChainRel a b) {s t : Bytes} (k : BLen s t) :
    RRel LChainRel (a.addData dir H s) (b.addData dir H t) := by
  unfold Chain.addData Chain.addDataFuel
  rw [k.len']
  exact (h.start dir H _).bind fun _ _ hl => addLoop dir H k _ _ hl

theorem streamLoop (dir : Dir) (H : HashFn) (len fuel written : Nat) (s : IStream) {a b : Chain} (h : LChainRel a b) :
    RRel (fun p q => LChainRel p.1 q.1) (Chain.streamLoop dir H len fuel written s a) (Chain.streamLoop dir H len fuel written s b) := by
  induction fuel generalizing written s a b with
  | zero => rfl
  | succ n ih =>
    unfold Chain.streamLoop
    rw [h.free H]
    refine RRel.refl.bind fun x y hxy => ?_
    subst hxy
    refine RRel.refl.bind fun u v huv => ?_
    subst huv
    obtain ⟨r, s⟩ := u
    cases r with
    | none => rfl
    | some part =>
      refine (h.curAdd dir H (BLen.refl part)).bind fun c d hcd => ?_
      exact RRel.ite Iff.rfl ((hcd.addBlock dir H).bind fun _ _ hl => ih _ _ hl) hcd

theorem addStream (dir : Dir) (H : HashFn) (h : LChainRel a b) (s : IStream) (len : Nat) :
    RRel (fun p q => LChainRel p.1 q.1) (a.addStream dir H s len) (b.addStream dir H s len) := by
  unfold Chain.addStream
  exact (h.start dir H _).bind fun _ _ hl => streamLoop dir H _ _ _ _ hl

theorem getResult (dir : Dir) (H : HashFn) (h : LChainRel a b) :
    RRel (fun p q => BLen p.1 q.1) (a.getResult dir H) (b.getResult dir H) := by
  obtain ⟨ac, ar, ai, ah⟩ := a
  obtain ⟨bc, br, bi, bh⟩ := b
  obtain ⟨hc, hr, hi, hh⟩ := h
  cases ac <;> cases bc <;> cases ar <;> cases br <;> first
    | exact hc.elim
    | exact hr.elim
    | rfl
    | exact (LBlockRel.getResult dir H hc).bind fun _ _ k => (k.addcopyToBytes hr).bind fun _ _ l => l

end LChainRel

end Verif
