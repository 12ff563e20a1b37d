import Verif.Lemmas.Randomless
import Verif.Lemmas.HeaderFlaw
import Verif.Spec.Random

/- Reading a header when the random source fails. -/
namespace Verif
namespace HeaderParse
open Spec

theorem rdHeader_bad {hs : Hashes} {r : Rand} (hr : r.good = false) {l : List Byte} (hl : l.length < 2 ^ 64) :
    (ModesRead l ∧ rdHeader rdList List.length hs r l = .fatal .terminate) ∨
    (¬ ModesRead l ∧ ∃ c, Flaw l c ∧ rdHeader rdList List.length hs r l = .ok (.stop c)) := by
  by_cases hm : ModesRead l
  · refine .inl ⟨hm, ?_⟩
    obtain ⟨hsize, fm, hm, rest, h, hk, hmode⟩ := hm
    have e1 := ofNat_toNat64 hl
    have e2 := ofNat_toNat64 (n := hsize) (by omega)
    rw [rdHeader_sizes (UInt64.ofNat l.length) (UInt64.ofNat hsize) _ l (by rw [e1, e2]; exact h),
      if_neg (by rw [e1]; simp), if_neg (by rw [gt_iff_lt, UInt64.lt_iff_toNat_lt, e1, e2]; omega)]
    refine Par.bind_fatal_eq ?_
    unfold rdContent
    rw [Par.bind_val_eq (rdByte_cons _ _), Par.bind_val_eq (rdByte_cons _ _)]
    refine Par.bind_fatal_eq ?_
    obtain ⟨m, hm, -⟩ := valid_hmode hmode
    rw [DataHeader.new_bad hr, hm]
    rfl
  · refine .inr ⟨hm, ?_⟩
    by_cases h16 : l.length < 16
    · refine ⟨_, .sizes h16, ?_⟩
      rcases rdLong_cases l with h1 | ⟨n, l1, hl1, h1⟩
      · exact Par.bind_stop_eq h1
      rcases rdLong_cases l1 with h2 | ⟨k, l2, rfl, -⟩
      · unfold rdHeader
        rw [Par.bind_val_eq h1]
        exact Par.bind_stop_eq h2
      · rw [hl1] at h16
        simp only [List.length_append, length_num8] at h16; omega
    obtain ⟨n, l1, hl1⟩ := split_num8 (l := l) (by omega)
    obtain ⟨k, l2, rfl⟩ := split_num8 (l := l1) (by rw [hl1] at h16; simp at h16; omega)
    by_cases hn : n.toNat ≠ l.length
    · refine ⟨_, .fileSize (by omega) ?_, ?_⟩
      · have : l.take 8 = num8 n.toNat := by rw [hl1, List.take_left' (length_num8 _)]
        rw [this, ← num8_ofNat n.toNat_lt, beValue_be8, UInt64.ofNat_toNat]
        exact hn
      · rw [rdHeader_sizes n k l2 l hl1, if_pos (Ne.symm hn)]
    have hn : n.toNat = l.length := Classical.byContradiction hn
    have hl2 := hl1
    rw [hn] at hl2
    by_cases hk : l.length < k.toNat
    · refine ⟨_, .headerSize _ _ hl2 k.toNat_lt hk, ?_⟩
      rw [rdHeader_sizes n k l2 l hl1, if_neg (by rw [hn]; simp),
        if_pos (by rw [gt_iff_lt, UInt64.lt_iff_toNat_lt, hn]; omega)]
    have hk : k.toNat ≤ l.length := by omega
    by_cases h2 : l2.length < 2
    · refine ⟨_, .modes _ _ hl2 hk h2, size_content hl hl2 hk ?_⟩
      rcases l2 with _ | ⟨fm, _ | ⟨hm, rest⟩⟩
      · exact Par.bind_stop_eq rdByte_nil
      · unfold rdContent
        rw [Par.bind_val_eq (rdByte_cons _ _)]
        exact Par.bind_stop_eq rdByte_nil
      · simp at h2; omega
    rcases l2 with _ | ⟨fm, _ | ⟨hb, l2⟩⟩
    · simp at h2
    · simp at h2
    by_cases hmode : hb = 1 ∨ hb = 2 ∨ hb = 3
    · exact absurd ⟨_, _, _, _, hl2, hk, hmode⟩ hm
    · refine ⟨_, .hashMode _ _ _ _ hl2 hk hmode, size_content hl hl2 hk ?_⟩
      unfold rdContent
      rw [Par.bind_val_eq (rdByte_cons _ _), Par.bind_val_eq (rdByte_cons _ _)]
      exact Par.bind_stop_eq (by rw [DataHeader.new_bad hr, hash_unknown hmode]; rfl)

end HeaderParse
end Verif
