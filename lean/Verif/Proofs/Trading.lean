import Verif.Spec.Trading
import Verif.Proofs.Solvency
/-! # Nobody wins by trading -/
namespace Uni
open U256 Spec TickData TickMath
namespace Pool

theorem isSwap_ledger {op : PoolOp} (h : op.IsSwap) (l : List Entry) : op.ledger l = l := by
  cases op <;> first | rfl | exact absurd h (fun h => h)

theorem trades_inv {h : List Entry} {p q : Pool} {d0 d1 : Int} (hi : Inv h p) (ht : Trades h p q d0 d1) :
    Inv h q ∧ principal0 h q.price.toNat - principal0 h p.price.toNat ≤ (d0 : ℚ) ∧
    principal1 h q.price.toNat - principal1 h p.price.toNat ≤ (d1 : ℚ) := by
  induction ht with
  | none => exact ⟨hi, by simp, by simp⟩
  | swap fuel op ht hswap ha hsafe hx ih =>
    obtain ⟨hq, e0, e1⟩ := ih
    have hi' := exec_inv hq ha hx
    obtain ⟨f0, f1⟩ := exec_principal hq ha hsafe hx
    rw [isSwap_ledger hswap] at hi' f0 f1
    refine ⟨hi', ?_, ?_⟩ <;> push_cast <;> linarith

/-- Holdings of one range at two prices: the tokens move in opposite directions, at bounded exchange rates. -/
theorem holding_mono {P Q : Nat} (hPQ : P ≤ Q) {l u : Int} (hl : -887272 ≤ l) (hlu : l < u) (hu : u ≤ 887272) :
    holding0 Q l u ≤ holding0 P l u ∧ holding1 P l u ≤ holding1 Q l u ∧
    holding0 P l u - holding0 Q l u ≤ 2 ^ 128 * (holding1 Q l u - holding1 P l u) ∧
    holding1 Q l u - holding1 P l u ≤ 2 ^ 128 * (holding0 P l u - holding0 Q l u) := by
  obtain ⟨q0, q1⟩ := holding_eq (P := Q) hl hlu hu
  obtain ⟨p0, p1⟩ := holding_eq (P := P) hl hlu hu
  rw [q0, q1, p0, p1]
  have r1 := ratioN_ge hl (by omega)
  have r2 := ratioN_lt160 (t := u) (by omega) hu
  have r3 := ratioN_lt (s := l) (t := u) hl hlu hu
  generalize ratioN l = a at *
  generalize ratioN u = b at *
  have hcd : clamp P a b ≤ clamp Q a b := by unfold clamp; omega
  have hc1 : 2 ^ 32 ≤ clamp P a b := by unfold clamp; omega
  have hd2 : clamp Q a b ≤ 2 ^ 160 := by unfold clamp; omega
  generalize clamp P a b = c at *
  generalize clamp Q a b = d at *
  have c1 : (2 : ℚ) ^ 32 ≤ c := by exact_mod_cast hc1
  have cd : (c : ℚ) ≤ d := by exact_mod_cast hcd
  have d2 : (d : ℚ) ≤ 2 ^ 160 := by exact_mod_cast hd2
  have cpos : (0 : ℚ) < c := by linarith [show (0 : ℚ) < 2 ^ 32 by norm_num]
  have dpos : (0 : ℚ) < d := by linarith
  have key : (2 : ℚ) ^ 96 * (1 / c - 1 / d) = 2 ^ 96 * (d - c) / (c * d) := by field_simp
  have lo : (2 : ℚ) ^ 64 ≤ c * d := by nlinarith
  have hi : (c : ℚ) * d ≤ 2 ^ 160 * 2 ^ 160 := mul_le_mul (by linarith) d2 (le_of_lt dpos) (by norm_num)
  have pos : (0 : ℚ) < c * d := by positivity
  have dc : (0 : ℚ) ≤ d - c := by linarith
  refine ⟨?_, ?_, ?_, ?_⟩
  · have : (0 : ℚ) ≤ 2 ^ 96 * (1 / c - 1 / d) := by rw [key]; positivity
    linarith
  · have : (c - a : ℚ) / 2 ^ 96 ≤ (d - a) / 2 ^ 96 := by
      apply div_le_div_of_nonneg_right _ (by norm_num)
      linarith
    exact this
  · have e : (2 : ℚ) ^ 96 * (1 / c - 1 / b) - 2 ^ 96 * (1 / d - 1 / b) = 2 ^ 96 * (d - c) / (c * d) := by rw [← key]; ring
    rw [e, div_le_iff₀ pos]
    have : (2 : ℚ) ^ 128 * ((d - a) / 2 ^ 96 - (c - a) / 2 ^ 96) * (c * d) = 2 ^ 32 * (d - c) * (c * d) := by ring
    rw [this]
    nlinarith
  · have e : (2 : ℚ) ^ 96 * (1 / c - 1 / b) - 2 ^ 96 * (1 / d - 1 / b) = 2 ^ 96 * (d - c) / (c * d) := by rw [← key]; ring
    rw [e, ← mul_div_assoc, le_div_iff₀ pos]
    have : ((d - a : ℚ) / 2 ^ 96 - (c - a) / 2 ^ 96) * (c * d) = (d - c) * (c * d) / 2 ^ 96 := by ring
    rw [this, div_le_iff₀ (by norm_num)]
    have : (d - c : ℚ) * (c * d) ≤ (d - c) * (2 ^ 160 * 2 ^ 160) := mul_le_mul_of_nonneg_left hi dc
    linarith

theorem principal_mono {h : List Entry} (hc : Covered h) (hb : ∀ e ∈ h, -887272 ≤ e.lower ∧ e.upper ≤ 887272) {P Q : Nat} (hPQ : P ≤ Q) :
    principal0 h Q ≤ principal0 h P ∧ principal1 h P ≤ principal1 h Q ∧
    principal0 h P - principal0 h Q ≤ 2 ^ 128 * (principal1 h Q - principal1 h P) ∧
    principal1 h Q - principal1 h P ≤ 2 ^ 128 * (principal0 h P - principal0 h Q) := by
  unfold principal0 principal1
  have key := fun e (he : e ∈ h) => holding_mono hPQ (hb e he).1 (hc.range e he) (hb e he).2
  refine ⟨wsum_le hc.nonneg (fun e he _ => (key e he).1), wsum_le hc.nonneg (fun e he _ => (key e he).2.1), ?_, ?_⟩
  · rw [← wsum_sub, ← wsum_sub, ← wsum_smul]
    exact wsum_le hc.nonneg (fun e he _ => (key e he).2.2.1)
  · rw [← wsum_sub, ← wsum_sub, ← wsum_smul]
    exact wsum_le hc.nonneg (fun e he _ => (key e he).2.2.2)

theorem trades_lose {h : List Entry} {p q : Pool} {d0 d1 : Int} (hi : Inv h p) (ht : Trades h p q d0 d1) :
    (p.price.toNat ≤ q.price.toNat → 0 ≤ d1 ∧ (d1 = 0 → 0 ≤ d0)) ∧
    (q.price.toNat ≤ p.price.toNat → 0 ≤ d0 ∧ (d0 = 0 → 0 ≤ d1)) := by
  obtain ⟨_, e0, e1⟩ := trades_inv hi ht
  constructor
  · intro hle
    obtain ⟨m0, m1, m2, m3⟩ := principal_mono hi.cov hi.bounds hle
    refine ⟨by exact_mod_cast (show (0 : ℚ) ≤ d1 by linarith), fun h0 => ?_⟩
    rw [h0] at e1
    push_cast at e1
    exact_mod_cast (show (0 : ℚ) ≤ d0 by linarith)
  · intro hle
    obtain ⟨m0, m1, m2, m3⟩ := principal_mono hi.cov hi.bounds hle
    refine ⟨by exact_mod_cast (show (0 : ℚ) ≤ d0 by linarith), fun h0 => ?_⟩
    rw [h0] at e0
    push_cast at e0
    exact_mod_cast (show (0 : ℚ) ≤ d1 by linarith)

end Pool
end Uni
