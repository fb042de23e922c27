import Verif.Proofs.Arith
/-! Order forms of `Cmp`. -/
namespace Uni
namespace U256

theorem cmp_lt0 (z x : U256) : cmp z x < 0 ↔ z.toNat < x.toNat := by
  rw [cmp_spec]; split <;> (try split) <;> omega
theorem cmp_gt0 (z x : U256) : cmp z x > 0 ↔ x.toNat < z.toNat := by
  rw [cmp_spec]; split <;> (try split) <;> omega
theorem cmp_le0 (z x : U256) : cmp z x ≤ 0 ↔ z.toNat ≤ x.toNat := by
  rw [cmp_spec]; split <;> (try split) <;> omega
theorem cmp_ge0 (z x : U256) : cmp z x ≥ 0 ↔ x.toNat ≤ z.toNat := by
  rw [cmp_spec]; split <;> (try split) <;> omega
theorem cmp_eq0 (z x : U256) : cmp z x = 0 ↔ z.toNat = x.toNat := cmp_zero_iff z x

end U256
end Uni
