import Verif.Proofs.SwapMath
/-! # C20: one swap step -/
namespace Uni
namespace Props
open U256 FullMath SqrtPriceMath SwapMath

/-- C20: for every pair of prices, liquidity below 2^128, remaining amount below 2^160 (any negative amount for exact
output) and fee below 100%, a step that returns satisfies the specification `Spec.SwapStep`: the price stays between
the current and the target price, the amounts are exactly the rounded amounts of the price move, never more than the
budget is spent, and the fee is at least the fee rate. -/
theorem C20_step (current target L rem : U256) (fee : Int) (s : Step)
    (hc : 2 ^ 32 ≤ current.toNat) (hc' : current.toNat < 2 ^ 160) (ht : 2 ^ 32 ≤ target.toNat) (ht' : target.toNat < 2 ^ 160)
    (hL : L.toNat < 2 ^ 128) (hr : rem.toInt < 2 ^ 160) (hf : 0 ≤ fee) (hf' : fee < 1000000)
    (h : computeSwapStep current target L rem fee = .ok s) :
    Spec.SwapStep current.toNat target.toNat L.toNat rem.toInt fee.toNat
      s.next.toNat s.amountIn.toNat s.amountOut.toNat s.fee.toNat := by
  rcases computeSwapStep_spec (rem := rem) ⟨hc, hc'⟩ ⟨ht, ht'⟩ hL hr hf hf' with ⟨_, he⟩ | ⟨s', hs, hspec⟩
  · rw [h] at he; cases he
  · rw [h] at hs; cases hs; exact hspec

/-- C20: a step panics only when token0 is sold at a price of at least 2^128. -/
theorem C20_step_total (current target L rem : U256) (fee : Int)
    (hc : 2 ^ 32 ≤ current.toNat) (hc' : current.toNat < 2 ^ 160) (ht : 2 ^ 32 ≤ target.toNat) (ht' : target.toNat < 2 ^ 160)
    (hL : L.toNat < 2 ^ 128) (hr : rem.toInt < 2 ^ 160) (hf : 0 ≤ fee) (hf' : fee < 1000000)
    (hp : current.toNat < 2 ^ 128 ∨ current.toNat < target.toNat) :
    ∃ s, computeSwapStep current target L rem fee = .ok s := by
  rcases computeSwapStep_spec (rem := rem) ⟨hc, hc'⟩ ⟨ht, ht'⟩ hL hr hf hf' with ⟨hp', _⟩ | ⟨s', hs, _⟩
  · exact absurd hp' (not_stepPanic hp)
  · exact ⟨s', hs⟩

-- concrete cases: not reaching and reaching the target, both directions, both modes
example : computeSwapStep (ofNat (2 ^ 96)) (ofNat (2 ^ 95)) (ofNat (10 ^ 18)) (ofNat (10 ^ 17)) 3000 =
    .ok ⟨ofNat 72045250990510446115798809072, ofNat 99700000000000000, ofNat 90661089388014913, ofNat 300000000000000⟩ := by
  decide +kernel
example : ∃ s, computeSwapStep (ofNat (2 ^ 96)) (ofNat (2 ^ 97)) (ofNat (10 ^ 18)) (neg (ofNat (10 ^ 17))) 3000 = .ok s ∧
    s.amountOut = ofNat (10 ^ 17) := by
  refine ⟨⟨ofNat 88031291682515930659493278152, ofNat 111111111111111112, ofNat (10 ^ 17), ofNat 334336342360415⟩, ?_, rfl⟩
  decide +kernel
example : ∃ s, computeSwapStep (ofNat (2 ^ 96)) (ofNat (2 ^ 97)) (ofNat (10 ^ 18)) (ofNat (10 ^ 19)) 500 = .ok s ∧
    s.next = ofNat (2 ^ 97) := by
  refine ⟨⟨ofNat (2 ^ 97), ofNat (10 ^ 18), ofNat (5 * 10 ^ 17), ofNat 500250125062532⟩, ?_, rfl⟩
  decide +kernel

end Props
end Uni
