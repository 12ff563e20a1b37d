import Verif.Spec.ChainTable
import Verif.Lemmas.PwFunc

namespace Verif
open Spec PwFunc

/-- room reserved for the salt of a mode -/
def Spec.ModeArgs.extra : ModeArgs → Nat
  | .normal => 0
  | .const s => s.length
  | .count _ => 20
  | .constCount _ s => s.length + 20
  | .quad .. => 20

theorem runStr_result (H : HashFn) (m : ModeArgs) (hm : m.SaltFits) (pw : List Byte) (n timeout : Nat)
    (clk : Nat → Nat) (hn : 1 ≤ n) :
    IsResult H m.rule pw m.extra n 1 n timeout clk (m.runStr H pw n timeout clk) := by
  cases m with
  | normal => exact chainhashStr_result H pw n timeout clk hn
  | const s => exact chainhashConstStr_result H pw s n timeout clk hn (by simp only [ModeArgs.SaltFits] at hm; omega)
  | count s => exact chainhashCountStr_result H pw s n timeout clk hn
  | constCount st s => exact chainhashConstCountStr_result H pw s st n timeout clk hn hm
  | quad s a b c => exact chainhashQuadStr_result H pw s a b c n timeout clk hn

theorem runBytes_result (H : HashFn) (m : ModeArgs) (hm : m.SaltFits) (d : Bytes) (hd : d.WF) (n timeout : Nat)
    (clk : Nat → Nat) :
    IsResult H m.rule d.data m.extra n 0 n timeout clk (m.runBytes H d n timeout clk) := by
  cases m with
  | normal => exact chainhashBytes_result H d hd n timeout clk
  | const s => exact chainhashConstBytes_result H d hd s n timeout clk (by simp only [ModeArgs.SaltFits] at hm; omega)
  | count s => exact chainhashCountBytes_result H d hd s n timeout clk
  | constCount st s => exact chainhashConstCountBytes_result H d hd s st n timeout clk hm
  | quad s a b c => exact chainhashQuadBytes_result H d hd s a b c n timeout clk

/-- what a timed routine returns, `lo` = rounds done before its loop -/
def IsTimed (H : HashFn) (r : SaltRule) (x : List Byte) (lo timeout : Nat) (clk : Nat → Nat) (fuel : Nat)
    (res : Res (Nat × Bytes)) : Prop :=
  (res = .fatal .diverge ∧ ∀ m, m % 1000 = 0 → lo < m → m - lo ≤ fuel → ¬ timeout ≤ clk m) ∨
  ∃ n b, res = .ok (n, b) ∧ lo < n ∧ n % 1000 = 0 ∧ timeout ≤ clk n ∧ b.data = chain H.h r n x ∧
    (∀ j, lo < j → j < n → j % 1000 = 0 → clk j < timeout) ∧ b.WF

theorem timedB {H : HashFn} {r : SaltRule} {x : List Byte} {extra timeout fuel lo : Nat} {clk : Nat → Nat}
    {body : Bytes → Res Bytes}
    (hbody : ∀ i s, InvB H r x extra i s → ∃ s', body s = .ok s' ∧ InvB H r x extra (i + 1) s') (b : Bytes)
    (hb : InvB H r x extra lo b) :
    IsTimed H r x lo timeout clk fuel (Res.noexcept (timedLoop timeout clk body fuel lo b)) := by
  rcases timedLoop_spec timeout clk body _ hbody fuel lo b hb with h | ⟨n, s, h, h1, h2, h3, h4, h5⟩
  · left
    refine ⟨by rw [h]; rfl, ?_⟩
    intro m hm hlo hf hc
    obtain ⟨r, hr⟩ := timedLoop_terminates timeout clk body _ hbody m hm hc fuel lo b hb hlo hf
    rw [h] at hr; cases hr
  · right; exact ⟨n, s, by rw [h]; rfl, h1, h2, h3, h4.1, h5, by have := h4.2.1; simp only [Bytes.WF]; omega⟩

theorem timedP {H : HashFn} {r : SaltRule} {x : List Byte} {extra timeout fuel lo : Nat} {clk : Nat → Nat}
    {body : Bytes × UInt64 → Res (Bytes × UInt64)} {Q : Nat → Bytes × UInt64 → Prop}
    (hbody : ∀ i s, InvB H r x extra i s.1 ∧ Q i s → ∃ s', body s = .ok s' ∧ InvB H r x extra (i + 1) s'.1 ∧ Q (i + 1) s')
    (p : Bytes × UInt64) (hb : InvB H r x extra lo p.1 ∧ Q lo p) :
    IsTimed H r x lo timeout clk fuel
      (Res.noexcept (timedLoop timeout clk body fuel lo p >>= fun r => pure (r.1, r.2.1))) := by
  rcases timedLoop_spec timeout clk body _ hbody fuel lo p hb with h | ⟨n, s, h, h1, h2, h3, h4, h5⟩
  · left
    refine ⟨by rw [h]; rfl, ?_⟩
    intro m hm hlo hf hc
    obtain ⟨r, hr⟩ := timedLoop_terminates timeout clk body _ hbody m hm hc fuel lo p hb hlo hf
    rw [h] at hr; cases hr
  · right; exact ⟨n, s.1, by rw [h]; rfl, h1, h2, h3, h4.1.1, h5, by have := h4.1.2.1; simp only [Bytes.WF]; omega⟩

theorem runTimedStr_result (H : HashFn) (m : ModeArgs) (hm : m.SaltFits) (pw : List Byte) (timeout : Nat)
    (clk : Nat → Nat) (fuel : Nat) :
    IsTimed H m.rule pw 1 timeout clk fuel (m.runTimedStr H pw timeout clk fuel) := by
  cases m with
  | normal =>
    simp only [ModeArgs.runTimedStr, chainhashTimedStr, hashStr_ok H pw 0 (by decide), Res.bind_ok]
    have hi := inv_init H .none pw [] 0 rfl
    simp only [List.append_nil] at hi
    exact timedB (bodyNormal_inv H pw) _ hi
  | const s =>
    simp only [ModeArgs.SaltFits] at hm
    simp only [ModeArgs.runTimedStr, chainhashConstTimedStr, hashStr_ok H _ s.length (by omega), Res.bind_ok]
    exact timedB (bodyConst_inv H pw s (by omega)) _ (inv_init H (.const s) pw s s.length rfl)
  | count s =>
    simp only [ModeArgs.runTimedStr, chainhashCountTimedStr, hashStr_ok H _ 20 (by decide), Res.bind_ok]
    exact timedP (bodyCountStr_inv H pw s) (⟨H.h (pw ++ toDec s), H.size + 20⟩, s)
      ⟨inv_init H (.count s.toNat) pw (toDec s) 20 (at_zero_count s), by rfl⟩
  | constCount st s =>
    simp only [ModeArgs.SaltFits] at hm
    simp only [ModeArgs.runTimedStr, chainhashConstCountTimedStr, hashStr_ok H _ (s.length + 20) (by omega),
      Res.bind_ok]
    refine timedP (bodyConstCountStr_inv H pw s hm st) (⟨H.h (pw ++ s ++ toDec st), H.size + (s.length + 20)⟩, st)
      ⟨?_, by rfl⟩
    have := inv_init H (.constCount s st.toNat) pw (s ++ toDec st) (s.length + 20) (by rw [← at_zero_count]; rfl)
    simpa [List.append_assoc] using this
  | quad s a b c =>
    simp only [ModeArgs.runTimedStr, chainhashQuadTimedStr, hashStr_ok H _ 20 (by decide), Res.bind_ok]
    exact timedP (bodyQuadStr_inv H pw s a b c) (⟨H.h (pw ++ toDec (quadValue s a b c)), H.size + 20⟩, s)
      ⟨inv_init H (.quad s.toNat a.toNat b.toNat c.toNat) pw _ 20 (at_zero_quad s a b c), by rfl⟩

theorem runTimedBytes_result (H : HashFn) (m : ModeArgs) (hm : m.SaltFits) (d : Bytes) (hd : d.WF) (timeout : Nat)
    (clk : Nat → Nat) (fuel : Nat) :
    IsTimed H m.rule d.data 0 timeout clk fuel (m.runTimedBytes H d timeout clk fuel) := by
  cases m with
  | normal => exact timedB (bodyNormal_inv H d.data) _ (inv_init_bytes H .none d 0 hd)
  | const s =>
    simp only [ModeArgs.SaltFits] at hm
    exact timedB (bodyConst_inv H d.data s (by omega)) _ (inv_init_bytes H (.const s) d s.length hd)
  | count s =>
    exact timedP (bodyCountBytes_inv H d.data s) (d.copyExtra 20, s)
      ⟨inv_init_bytes H (.count s.toNat) d 20 hd, by simp⟩
  | constCount st s =>
    exact timedP (bodyConstCountBytes_inv H d.data s hm st) (d.copyExtra (s.length + 20), st)
      ⟨inv_init_bytes H (.constCount s st.toNat) d _ hd, by simp⟩
  | quad s a b c =>
    exact timedP (bodyQuadBytes_inv H d.data s a b c) (d.copyExtra 20, s)
      ⟨inv_init_bytes H (.quad s.toNat a.toNat b.toNat c.toNat) d 20 hd, by simp⟩

end Verif
