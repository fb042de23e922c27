import Verif.Model.Mod
import Verif.Proofs.Word
import Mathlib.Tactic.LinearCombination
import Mathlib.Tactic.Linarith
/-! Values of the straight-line blocks of `Reciprocal` and `reduce4`.

Each `_core` lemma is about integers: `e_<k>` is the equation of statement `k`, `l_` and `u_` are bounds.  A carry
that the code drops is shown to be zero from the equations before it. -/
set_option exponentiation.threshold 1000
namespace Uni

theorem mulZ (x y : Word) :
    ((mul64 x y).2.toNat : ℤ) + 18446744073709551616 * (mul64 x y).1.toNat = x.toNat * y.toNat := by
  exact_mod_cast mul64_spec x y

theorem addZ (x y c : Word) (hc : c.toNat ≤ 1) :
    ((add64 x y c).1.toNat : ℤ) + 18446744073709551616 * (add64 x y c).2.toNat = x.toNat + y.toNat + c.toNat ∧
    (add64 x y c).2.toNat ≤ 1 := by
  have h := add64_spec x y c hc
  exact ⟨by exact_mod_cast h.1, h.2⟩

theorem addZc (x y : Word) :
    ((add64 x y 0).1.toNat : ℤ) + 18446744073709551616 * (add64 x y 0).2.toNat = x.toNat + y.toNat ∧
    (add64 x y 0).2.toNat ≤ 1 := by
  have h := add64_spec x y 0 (by decide)
  exact ⟨by exact_mod_cast h.1, h.2⟩

theorem addZ0 (x c : Word) (hc : c.toNat ≤ 1) :
    ((add64 x 0 c).1.toNat : ℤ) + 18446744073709551616 * (add64 x 0 c).2.toNat = x.toNat + c.toNat ∧
    (add64 x 0 c).2.toNat ≤ 1 := by
  have h := add64_spec x 0 c hc
  exact ⟨by exact_mod_cast h.1, h.2⟩

theorem wL {x : Word} : (0 : ℤ) ≤ x.toNat := Int.natCast_nonneg _

theorem wU {x : Word} : (x.toNat : ℤ) ≤ 18446744073709551615 := by
  have := x.isLt
  omega

theorem prod_le {x y : ℤ} (ly : 0 ≤ y) (ux : x ≤ 18446744073709551615) (uy : y ≤ 18446744073709551615) :
    x * y ≤ 340282366920938463426481119284349108225 :=
  calc x * y ≤ 18446744073709551615 * y := mul_le_mul_of_nonneg_right ux ly
    _ ≤ 18446744073709551615 * 18446744073709551615 := by linarith
    _ = _ := by norm_num

theorem Words2.toZ (x : Words2) : (x.toNat : ℤ) = x.w0.toNat + 18446744073709551616 * x.w1.toNat := by
  simp only [Words2.toNat]
  push_cast
  norm_num

theorem Words3.toZ (x : Words3) : (x.toNat : ℤ) = x.w0.toNat + 18446744073709551616 * x.w1.toNat + 340282366920938463463374607431768211456 * x.w2.toNat := by
  simp only [Words3.toNat]
  push_cast
  norm_num

theorem Words5.toZ (x : Words5) : (x.toNat : ℤ) = x.w0.toNat + 18446744073709551616 * x.w1.toNat + 340282366920938463463374607431768211456 * x.w2.toNat + 6277101735386680763835789423207666416102355444464034512896 * x.w3.toNat + 115792089237316195423570985008687907853269984665640564039457584007913129639936 * x.w4.toNat := by
  simp only [Words5.toNat]
  push_cast
  norm_num

theorem Words6.toZ (x : Words6) : (x.toNat : ℤ) = x.w0.toNat + 18446744073709551616 * x.w1.toNat + 340282366920938463463374607431768211456 * x.w2.toNat + 6277101735386680763835789423207666416102355444464034512896 * x.w3.toNat + 115792089237316195423570985008687907853269984665640564039457584007913129639936 * x.w4.toNat + 2135987035920910082395021706169552114602704522356652769947041607822219725780640550022962086936576 * x.w5.toNat := by
  simp only [Words6.toNat]
  push_cast
  norm_num

theorem Words7.toZ (x : Words7) : (x.toNat : ℤ) = x.w0.toNat + 18446744073709551616 * x.w1.toNat + 340282366920938463463374607431768211456 * x.w2.toNat + 6277101735386680763835789423207666416102355444464034512896 * x.w3.toNat + 115792089237316195423570985008687907853269984665640564039457584007913129639936 * x.w4.toNat + 2135987035920910082395021706169552114602704522356652769947041607822219725780640550022962086936576 * x.w5.toNat + 39402006196394479212279040100143613805079739270465446667948293404245721771497210611414266254884915640806627990306816 * x.w6.toNat := by
  simp only [Words7.toNat]
  push_cast
  norm_num

theorem Words9.toZ (x : Words9) : (x.toNat : ℤ) = x.w0.toNat + 18446744073709551616 * x.w1.toNat + 340282366920938463463374607431768211456 * x.w2.toNat + 6277101735386680763835789423207666416102355444464034512896 * x.w3.toNat + 115792089237316195423570985008687907853269984665640564039457584007913129639936 * x.w4.toNat + 2135987035920910082395021706169552114602704522356652769947041607822219725780640550022962086936576 * x.w5.toNat + 39402006196394479212279040100143613805079739270465446667948293404245721771497210611414266254884915640806627990306816 * x.w6.toNat + 726838724295606890549323807888004534353641360687318060281490199180639288113397923326191050713763565560762521606266177933534601628614656 * x.w7.toNat + 13407807929942597099574024998205846127479365820592393377723561443721764030073546976801874298166903427690031858186486050853753882811946569946433649006084096 * x.w8.toNat := by
  simp only [Words9.toNat]
  push_cast
  norm_num

theorem U256.toZ (x : U256) : (x.toNat : ℤ) = x.w0.toNat + 18446744073709551616 * x.w1.toNat + 340282366920938463463374607431768211456 * x.w2.toNat + 6277101735386680763835789423207666416102355444464034512896 * x.w3.toNat := by
  simp only [U256.toNat]
  push_cast
  ring

namespace U256

theorem recipMul3_core {x_w0 x_w1 x_w2 x_w3 y_w0 y_w1 y_w2 y_w3 p1h p1l p2h p2l s3v s3c s4v s4c p5h p5l s6v s6c p7h p7l s8v s8c s9v s9c p10h p10l s11v s11c s12v s12c s13v s13c p14h p14l s15v s15c s16v s16c p17h p17l s18v s18c s19v s19c p20h p20l s21v s21c p22h p22l s23v s23c s24v s24c s25v s25c p26h p26l s27v s27c s28v s28c p29h p29l s30v s30c s31v s31c p32h p32l s33v s33c s34v s34c p35h p35l s36v s36c s37v s37c s38v s38c : ℤ}
    (l_x_w0 : 0 ≤ x_w0)
    (u_x_w0 : x_w0 ≤ 18446744073709551615)
    (l_x_w1 : 0 ≤ x_w1)
    (u_x_w1 : x_w1 ≤ 18446744073709551615)
    (l_x_w2 : 0 ≤ x_w2)
    (u_x_w2 : x_w2 ≤ 18446744073709551615)
    (l_x_w3 : 0 ≤ x_w3)
    (u_x_w3 : x_w3 ≤ 18446744073709551615)
    (l_y_w0 : 0 ≤ y_w0)
    (u_y_w0 : y_w0 ≤ 18446744073709551615)
    (l_y_w1 : 0 ≤ y_w1)
    (u_y_w1 : y_w1 ≤ 18446744073709551615)
    (l_y_w2 : 0 ≤ y_w2)
    (u_y_w2 : y_w2 ≤ 18446744073709551615)
    (l_y_w3 : 0 ≤ y_w3)
    (u_y_w3 : y_w3 ≤ 18446744073709551615)
    (e_p1 : p1l + 18446744073709551616 * p1h = x_w2 * y_w0)
    (l_p1l : 0 ≤ p1l)
    (u_p1l : p1l ≤ 18446744073709551615)
    (e_p2 : p2l + 18446744073709551616 * p2h = x_w3 * y_w0)
    (e_s3 : s3v + 18446744073709551616 * s3c = p1h + p2l)
    (l_s3v : 0 ≤ s3v)
    (e_s4 : s4v + 18446744073709551616 * s4c = p2h + s3c)
    (l_s4v : 0 ≤ s4v)
    (l_s4c : 0 ≤ s4c)
    (e_p5 : p5l + 18446744073709551616 * p5h = x_w1 * y_w1)
    (l_p5l : 0 ≤ p5l)
    (u_p5l : p5l ≤ 18446744073709551615)
    (e_s6 : s6v + 18446744073709551616 * s6c = s3v + p5h)
    (l_s6v : 0 ≤ s6v)
    (e_p7 : p7l + 18446744073709551616 * p7h = x_w3 * y_w1)
    (e_s8 : s8v + 18446744073709551616 * s8c = s4v + p7l + s6c)
    (l_s8v : 0 ≤ s8v)
    (e_s9 : s9v + 18446744073709551616 * s9c = p7h + s8c)
    (l_s9v : 0 ≤ s9v)
    (l_s9c : 0 ≤ s9c)
    (e_p10 : p10l + 18446744073709551616 * p10h = x_w2 * y_w1)
    (e_s11 : s11v + 18446744073709551616 * s11c = s6v + p10l)
    (l_s11v : 0 ≤ s11v)
    (e_s12 : s12v + 18446744073709551616 * s12c = s8v + p10h + s11c)
    (l_s12v : 0 ≤ s12v)
    (e_s13 : s13v + 18446744073709551616 * s13c = s9v + s12c)
    (l_s13v : 0 ≤ s13v)
    (l_s13c : 0 ≤ s13c)
    (e_p14 : p14l + 18446744073709551616 * p14h = x_w1 * y_w2)
    (e_s15 : s15v + 18446744073709551616 * s15c = s11v + p14l)
    (l_s15v : 0 ≤ s15v)
    (e_s16 : s16v + 18446744073709551616 * s16c = s12v + p14h + s15c)
    (l_s16v : 0 ≤ s16v)
    (e_p17 : p17l + 18446744073709551616 * p17h = x_w3 * y_w2)
    (e_s18 : s18v + 18446744073709551616 * s18c = s13v + p17l + s16c)
    (l_s18v : 0 ≤ s18v)
    (e_s19 : s19v + 18446744073709551616 * s19c = p17h + s18c)
    (l_s19v : 0 ≤ s19v)
    (l_s19c : 0 ≤ s19c)
    (e_p20 : p20l + 18446744073709551616 * p20h = x_w0 * y_w2)
    (l_p20l : 0 ≤ p20l)
    (u_p20l : p20l ≤ 18446744073709551615)
    (e_s21 : s21v + 18446744073709551616 * s21c = s15v + p20h)
    (l_s21v : 0 ≤ s21v)
    (e_p22 : p22l + 18446744073709551616 * p22h = x_w2 * y_w2)
    (e_s23 : s23v + 18446744073709551616 * s23c = s16v + p22l + s21c)
    (l_s23v : 0 ≤ s23v)
    (e_s24 : s24v + 18446744073709551616 * s24c = s18v + p22h + s23c)
    (l_s24v : 0 ≤ s24v)
    (e_s25 : s25v + 18446744073709551616 * s25c = s19v + s24c)
    (l_s25v : 0 ≤ s25v)
    (l_s25c : 0 ≤ s25c)
    (e_p26 : p26l + 18446744073709551616 * p26h = x_w1 * y_w3)
    (e_s27 : s27v + 18446744073709551616 * s27c = s23v + p26l)
    (l_s27v : 0 ≤ s27v)
    (e_s28 : s28v + 18446744073709551616 * s28c = s24v + p26h + s27c)
    (l_s28v : 0 ≤ s28v)
    (e_p29 : p29l + 18446744073709551616 * p29h = x_w3 * y_w3)
    (e_s30 : s30v + 18446744073709551616 * s30c = s25v + p29l + s28c)
    (l_s30v : 0 ≤ s30v)
    (e_s31 : s31v + 18446744073709551616 * s31c = p29h + s30c)
    (l_s31v : 0 ≤ s31v)
    (l_s31c : 0 ≤ s31c)
    (e_p32 : p32l + 18446744073709551616 * p32h = x_w0 * y_w3)
    (e_s33 : s33v + 18446744073709551616 * s33c = s21v + p32l)
    (l_s33v : 0 ≤ s33v)
    (e_s34 : s34v + 18446744073709551616 * s34c = s27v + p32h + s33c)
    (l_s34v : 0 ≤ s34v)
    (e_p35 : p35l + 18446744073709551616 * p35h = x_w2 * y_w3)
    (e_s36 : s36v + 18446744073709551616 * s36c = s28v + p35l + s34c)
    (l_s36v : 0 ≤ s36v)
    (e_s37 : s37v + 18446744073709551616 * s37c = s30v + p35h + s36c)
    (l_s37v : 0 ≤ s37v)
    (e_s38 : s38v + 18446744073709551616 * s38c = s31v + s37c)
    (l_s38v : 0 ≤ s38v)
    (l_s38c : 0 ≤ s38c) :
    6277101735386680763835789423207666416102355444464034512896 * (s33v + 18446744073709551616 * s34v + 340282366920938463463374607431768211456 * s36v + 6277101735386680763835789423207666416102355444464034512896 * s37v + 115792089237316195423570985008687907853269984665640564039457584007913129639936 * s38v) ≤ (x_w0 + 18446744073709551616 * x_w1 + 340282366920938463463374607431768211456 * x_w2 + 6277101735386680763835789423207666416102355444464034512896 * x_w3) * (y_w0 + 18446744073709551616 * y_w1 + 340282366920938463463374607431768211456 * y_w2 + 6277101735386680763835789423207666416102355444464034512896 * y_w3) ∧ (x_w0 + 18446744073709551616 * x_w1 + 340282366920938463463374607431768211456 * x_w2 + 6277101735386680763835789423207666416102355444464034512896 * x_w3) * (y_w0 + 18446744073709551616 * y_w1 + 340282366920938463463374607431768211456 * y_w2 + 6277101735386680763835789423207666416102355444464034512896 * y_w3) < 6277101735386680763835789423207666416102355444464034512896 * (s33v + 18446744073709551616 * s34v + 340282366920938463463374607431768211456 * s36v + 6277101735386680763835789423207666416102355444464034512896 * s37v + 115792089237316195423570985008687907853269984665640564039457584007913129639936 * s38v + 8) := by
  have l_x_w0_y_w0 : 0 ≤ x_w0 * y_w0 := mul_nonneg l_x_w0 l_y_w0
  have u_x_w0_y_w0 : x_w0 * y_w0 ≤ 340282366920938463426481119284349108225 := prod_le l_y_w0 u_x_w0 u_y_w0
  have l_x_w0_y_w1 : 0 ≤ x_w0 * y_w1 := mul_nonneg l_x_w0 l_y_w1
  have u_x_w0_y_w1 : x_w0 * y_w1 ≤ 340282366920938463426481119284349108225 := prod_le l_y_w1 u_x_w0 u_y_w1
  have l_x_w0_y_w2 : 0 ≤ x_w0 * y_w2 := mul_nonneg l_x_w0 l_y_w2
  have u_x_w0_y_w2 : x_w0 * y_w2 ≤ 340282366920938463426481119284349108225 := prod_le l_y_w2 u_x_w0 u_y_w2
  have l_x_w0_y_w3 : 0 ≤ x_w0 * y_w3 := mul_nonneg l_x_w0 l_y_w3
  have u_x_w0_y_w3 : x_w0 * y_w3 ≤ 340282366920938463426481119284349108225 := prod_le l_y_w3 u_x_w0 u_y_w3
  have l_x_w1_y_w0 : 0 ≤ x_w1 * y_w0 := mul_nonneg l_x_w1 l_y_w0
  have u_x_w1_y_w0 : x_w1 * y_w0 ≤ 340282366920938463426481119284349108225 := prod_le l_y_w0 u_x_w1 u_y_w0
  have l_x_w1_y_w1 : 0 ≤ x_w1 * y_w1 := mul_nonneg l_x_w1 l_y_w1
  have u_x_w1_y_w1 : x_w1 * y_w1 ≤ 340282366920938463426481119284349108225 := prod_le l_y_w1 u_x_w1 u_y_w1
  have l_x_w1_y_w2 : 0 ≤ x_w1 * y_w2 := mul_nonneg l_x_w1 l_y_w2
  have u_x_w1_y_w2 : x_w1 * y_w2 ≤ 340282366920938463426481119284349108225 := prod_le l_y_w2 u_x_w1 u_y_w2
  have l_x_w1_y_w3 : 0 ≤ x_w1 * y_w3 := mul_nonneg l_x_w1 l_y_w3
  have u_x_w1_y_w3 : x_w1 * y_w3 ≤ 340282366920938463426481119284349108225 := prod_le l_y_w3 u_x_w1 u_y_w3
  have l_x_w2_y_w0 : 0 ≤ x_w2 * y_w0 := mul_nonneg l_x_w2 l_y_w0
  have u_x_w2_y_w0 : x_w2 * y_w0 ≤ 340282366920938463426481119284349108225 := prod_le l_y_w0 u_x_w2 u_y_w0
  have l_x_w2_y_w1 : 0 ≤ x_w2 * y_w1 := mul_nonneg l_x_w2 l_y_w1
  have u_x_w2_y_w1 : x_w2 * y_w1 ≤ 340282366920938463426481119284349108225 := prod_le l_y_w1 u_x_w2 u_y_w1
  have l_x_w2_y_w2 : 0 ≤ x_w2 * y_w2 := mul_nonneg l_x_w2 l_y_w2
  have u_x_w2_y_w2 : x_w2 * y_w2 ≤ 340282366920938463426481119284349108225 := prod_le l_y_w2 u_x_w2 u_y_w2
  have l_x_w2_y_w3 : 0 ≤ x_w2 * y_w3 := mul_nonneg l_x_w2 l_y_w3
  have u_x_w2_y_w3 : x_w2 * y_w3 ≤ 340282366920938463426481119284349108225 := prod_le l_y_w3 u_x_w2 u_y_w3
  have l_x_w3_y_w0 : 0 ≤ x_w3 * y_w0 := mul_nonneg l_x_w3 l_y_w0
  have u_x_w3_y_w0 : x_w3 * y_w0 ≤ 340282366920938463426481119284349108225 := prod_le l_y_w0 u_x_w3 u_y_w0
  have l_x_w3_y_w1 : 0 ≤ x_w3 * y_w1 := mul_nonneg l_x_w3 l_y_w1
  have u_x_w3_y_w1 : x_w3 * y_w1 ≤ 340282366920938463426481119284349108225 := prod_le l_y_w1 u_x_w3 u_y_w1
  have l_x_w3_y_w2 : 0 ≤ x_w3 * y_w2 := mul_nonneg l_x_w3 l_y_w2
  have u_x_w3_y_w2 : x_w3 * y_w2 ≤ 340282366920938463426481119284349108225 := prod_le l_y_w2 u_x_w3 u_y_w2
  have l_x_w3_y_w3 : 0 ≤ x_w3 * y_w3 := mul_nonneg l_x_w3 l_y_w3
  have u_x_w3_y_w3 : x_w3 * y_w3 ≤ 340282366920938463426481119284349108225 := prod_le l_y_w3 u_x_w3 u_y_w3
  have z_s4 : s4c = 0 := by
    have e : 2135987035920910082395021706169552114602704522356652769947041607822219725780640550022962086936576 * s4c + 115792089237316195423570985008687907853269984665640564039457584007913129639936 * s4v + 6277101735386680763835789423207666416102355444464034512896 * s3v + 340282366920938463463374607431768211456 * p1l = 6277101735386680763835789423207666416102355444464034512896 * (x_w3 * y_w0) + 340282366920938463463374607431768211456 * (x_w2 * y_w0) := by
      linear_combination 115792089237316195423570985008687907853269984665640564039457584007913129639936 * e_s4 + 6277101735386680763835789423207666416102355444464034512896 * e_s3 + 6277101735386680763835789423207666416102355444464034512896 * e_p2 + 340282366920938463463374607431768211456 * e_p1
    have : s4c < 1 := by linarith only [e, l_s4c, l_s4v, l_s3v, l_p1l, u_x_w3_y_w0, u_x_w2_y_w0]
    omega
  have z_s9 : s9c = 0 := by
    have e : 39402006196394479212279040100143613805079739270465446667948293404245721771497210611414266254884915640806627990306816 * s9c + 2135987035920910082395021706169552114602704522356652769947041607822219725780640550022962086936576 * s9v + 115792089237316195423570985008687907853269984665640564039457584007913129639936 * s8v + 6277101735386680763835789423207666416102355444464034512896 * s6v + 340282366920938463463374607431768211456 * p5l + 340282366920938463463374607431768211456 * p1l = 115792089237316195423570985008687907853269984665640564039457584007913129639936 * (x_w3 * y_w1) + 340282366920938463463374607431768211456 * (x_w1 * y_w1) + 6277101735386680763835789423207666416102355444464034512896 * (x_w3 * y_w0) + 340282366920938463463374607431768211456 * (x_w2 * y_w0) := by
      linear_combination 2135987035920910082395021706169552114602704522356652769947041607822219725780640550022962086936576 * e_s9 + 115792089237316195423570985008687907853269984665640564039457584007913129639936 * e_s8 + 115792089237316195423570985008687907853269984665640564039457584007913129639936 * e_p7 + 6277101735386680763835789423207666416102355444464034512896 * e_s6 + 340282366920938463463374607431768211456 * e_p5 + 115792089237316195423570985008687907853269984665640564039457584007913129639936 * e_s4 + 6277101735386680763835789423207666416102355444464034512896 * e_s3 + 6277101735386680763835789423207666416102355444464034512896 * e_p2 + 340282366920938463463374607431768211456 * e_p1 + -2135987035920910082395021706169552114602704522356652769947041607822219725780640550022962086936576 * z_s4
    have : s9c < 1 := by linarith only [e, l_s9c, l_s9v, l_s8v, l_s6v, l_p5l, l_p1l, u_x_w3_y_w1, u_x_w1_y_w1, u_x_w3_y_w0, u_x_w2_y_w0]
    omega
  have z_s13 : s13c = 0 := by
    have e : 39402006196394479212279040100143613805079739270465446667948293404245721771497210611414266254884915640806627990306816 * s13c + 2135987035920910082395021706169552114602704522356652769947041607822219725780640550022962086936576 * s13v + 115792089237316195423570985008687907853269984665640564039457584007913129639936 * s12v + 6277101735386680763835789423207666416102355444464034512896 * s11v + 340282366920938463463374607431768211456 * p5l + 340282366920938463463374607431768211456 * p1l = 6277101735386680763835789423207666416102355444464034512896 * (x_w2 * y_w1) + 115792089237316195423570985008687907853269984665640564039457584007913129639936 * (x_w3 * y_w1) + 340282366920938463463374607431768211456 * (x_w1 * y_w1) + 6277101735386680763835789423207666416102355444464034512896 * (x_w3 * y_w0) + 340282366920938463463374607431768211456 * (x_w2 * y_w0) := by
      linear_combination 2135987035920910082395021706169552114602704522356652769947041607822219725780640550022962086936576 * e_s13 + 115792089237316195423570985008687907853269984665640564039457584007913129639936 * e_s12 + 6277101735386680763835789423207666416102355444464034512896 * e_s11 + 6277101735386680763835789423207666416102355444464034512896 * e_p10 + 2135987035920910082395021706169552114602704522356652769947041607822219725780640550022962086936576 * e_s9 + 115792089237316195423570985008687907853269984665640564039457584007913129639936 * e_s8 + 115792089237316195423570985008687907853269984665640564039457584007913129639936 * e_p7 + 6277101735386680763835789423207666416102355444464034512896 * e_s6 + 340282366920938463463374607431768211456 * e_p5 + 115792089237316195423570985008687907853269984665640564039457584007913129639936 * e_s4 + 6277101735386680763835789423207666416102355444464034512896 * e_s3 + 6277101735386680763835789423207666416102355444464034512896 * e_p2 + 340282366920938463463374607431768211456 * e_p1 + -39402006196394479212279040100143613805079739270465446667948293404245721771497210611414266254884915640806627990306816 * z_s9 + -2135987035920910082395021706169552114602704522356652769947041607822219725780640550022962086936576 * z_s4
    have : s13c < 1 := by linarith only [e, l_s13c, l_s13v, l_s12v, l_s11v, l_p5l, l_p1l, u_x_w2_y_w1, u_x_w3_y_w1, u_x_w1_y_w1, u_x_w3_y_w0, u_x_w2_y_w0]
    omega
  have z_s19 : s19c = 0 := by
    have e : 726838724295606890549323807888004534353641360687318060281490199180639288113397923326191050713763565560762521606266177933534601628614656 * s19c + 39402006196394479212279040100143613805079739270465446667948293404245721771497210611414266254884915640806627990306816 * s19v + 2135987035920910082395021706169552114602704522356652769947041607822219725780640550022962086936576 * s18v + 115792089237316195423570985008687907853269984665640564039457584007913129639936 * s16v + 6277101735386680763835789423207666416102355444464034512896 * s15v + 340282366920938463463374607431768211456 * p5l + 340282366920938463463374607431768211456 * p1l = 2135987035920910082395021706169552114602704522356652769947041607822219725780640550022962086936576 * (x_w3 * y_w2) + 6277101735386680763835789423207666416102355444464034512896 * (x_w1 * y_w2) + 6277101735386680763835789423207666416102355444464034512896 * (x_w2 * y_w1) + 115792089237316195423570985008687907853269984665640564039457584007913129639936 * (x_w3 * y_w1) + 340282366920938463463374607431768211456 * (x_w1 * y_w1) + 6277101735386680763835789423207666416102355444464034512896 * (x_w3 * y_w0) + 340282366920938463463374607431768211456 * (x_w2 * y_w0) := by
      linear_combination 39402006196394479212279040100143613805079739270465446667948293404245721771497210611414266254884915640806627990306816 * e_s19 + 2135987035920910082395021706169552114602704522356652769947041607822219725780640550022962086936576 * e_s18 + 2135987035920910082395021706169552114602704522356652769947041607822219725780640550022962086936576 * e_p17 + 115792089237316195423570985008687907853269984665640564039457584007913129639936 * e_s16 + 6277101735386680763835789423207666416102355444464034512896 * e_s15 + 6277101735386680763835789423207666416102355444464034512896 * e_p14 + 2135987035920910082395021706169552114602704522356652769947041607822219725780640550022962086936576 * e_s13 + 115792089237316195423570985008687907853269984665640564039457584007913129639936 * e_s12 + 6277101735386680763835789423207666416102355444464034512896 * e_s11 + 6277101735386680763835789423207666416102355444464034512896 * e_p10 + 2135987035920910082395021706169552114602704522356652769947041607822219725780640550022962086936576 * e_s9 + 115792089237316195423570985008687907853269984665640564039457584007913129639936 * e_s8 + 115792089237316195423570985008687907853269984665640564039457584007913129639936 * e_p7 + 6277101735386680763835789423207666416102355444464034512896 * e_s6 + 340282366920938463463374607431768211456 * e_p5 + 115792089237316195423570985008687907853269984665640564039457584007913129639936 * e_s4 + 6277101735386680763835789423207666416102355444464034512896 * e_s3 + 6277101735386680763835789423207666416102355444464034512896 * e_p2 + 340282366920938463463374607431768211456 * e_p1 + -39402006196394479212279040100143613805079739270465446667948293404245721771497210611414266254884915640806627990306816 * z_s13 + -39402006196394479212279040100143613805079739270465446667948293404245721771497210611414266254884915640806627990306816 * z_s9 + -2135987035920910082395021706169552114602704522356652769947041607822219725780640550022962086936576 * z_s4
    have : s19c < 1 := by linarith only [e, l_s19c, l_s19v, l_s18v, l_s16v, l_s15v, l_p5l, l_p1l, u_x_w3_y_w2, u_x_w1_y_w2, u_x_w2_y_w1, u_x_w3_y_w1, u_x_w1_y_w1, u_x_w3_y_w0, u_x_w2_y_w0]
    omega
  have z_s25 : s25c = 0 := by
    have e : 726838724295606890549323807888004534353641360687318060281490199180639288113397923326191050713763565560762521606266177933534601628614656 * s25c + 39402006196394479212279040100143613805079739270465446667948293404245721771497210611414266254884915640806627990306816 * s25v + 2135987035920910082395021706169552114602704522356652769947041607822219725780640550022962086936576 * s24v + 115792089237316195423570985008687907853269984665640564039457584007913129639936 * s23v + 6277101735386680763835789423207666416102355444464034512896 * s21v + 340282366920938463463374607431768211456 * p20l + 340282366920938463463374607431768211456 * p5l + 340282366920938463463374607431768211456 * p1l = 115792089237316195423570985008687907853269984665640564039457584007913129639936 * (x_w2 * y_w2) + 340282366920938463463374607431768211456 * (x_w0 * y_w2) + 2135987035920910082395021706169552114602704522356652769947041607822219725780640550022962086936576 * (x_w3 * y_w2) + 6277101735386680763835789423207666416102355444464034512896 * (x_w1 * y_w2) + 6277101735386680763835789423207666416102355444464034512896 * (x_w2 * y_w1) + 115792089237316195423570985008687907853269984665640564039457584007913129639936 * (x_w3 * y_w1) + 340282366920938463463374607431768211456 * (x_w1 * y_w1) + 6277101735386680763835789423207666416102355444464034512896 * (x_w3 * y_w0) + 340282366920938463463374607431768211456 * (x_w2 * y_w0) := by
      linear_combination 39402006196394479212279040100143613805079739270465446667948293404245721771497210611414266254884915640806627990306816 * e_s25 + 2135987035920910082395021706169552114602704522356652769947041607822219725780640550022962086936576 * e_s24 + 115792089237316195423570985008687907853269984665640564039457584007913129639936 * e_s23 + 115792089237316195423570985008687907853269984665640564039457584007913129639936 * e_p22 + 6277101735386680763835789423207666416102355444464034512896 * e_s21 + 340282366920938463463374607431768211456 * e_p20 + 39402006196394479212279040100143613805079739270465446667948293404245721771497210611414266254884915640806627990306816 * e_s19 + 2135987035920910082395021706169552114602704522356652769947041607822219725780640550022962086936576 * e_s18 + 2135987035920910082395021706169552114602704522356652769947041607822219725780640550022962086936576 * e_p17 + 115792089237316195423570985008687907853269984665640564039457584007913129639936 * e_s16 + 6277101735386680763835789423207666416102355444464034512896 * e_s15 + 6277101735386680763835789423207666416102355444464034512896 * e_p14 + 2135987035920910082395021706169552114602704522356652769947041607822219725780640550022962086936576 * e_s13 + 115792089237316195423570985008687907853269984665640564039457584007913129639936 * e_s12 + 6277101735386680763835789423207666416102355444464034512896 * e_s11 + 6277101735386680763835789423207666416102355444464034512896 * e_p10 + 2135987035920910082395021706169552114602704522356652769947041607822219725780640550022962086936576 * e_s9 + 115792089237316195423570985008687907853269984665640564039457584007913129639936 * e_s8 + 115792089237316195423570985008687907853269984665640564039457584007913129639936 * e_p7 + 6277101735386680763835789423207666416102355444464034512896 * e_s6 + 340282366920938463463374607431768211456 * e_p5 + 115792089237316195423570985008687907853269984665640564039457584007913129639936 * e_s4 + 6277101735386680763835789423207666416102355444464034512896 * e_s3 + 6277101735386680763835789423207666416102355444464034512896 * e_p2 + 340282366920938463463374607431768211456 * e_p1 + -726838724295606890549323807888004534353641360687318060281490199180639288113397923326191050713763565560762521606266177933534601628614656 * z_s19 + -39402006196394479212279040100143613805079739270465446667948293404245721771497210611414266254884915640806627990306816 * z_s13 + -39402006196394479212279040100143613805079739270465446667948293404245721771497210611414266254884915640806627990306816 * z_s9 + -2135987035920910082395021706169552114602704522356652769947041607822219725780640550022962086936576 * z_s4
    have : s25c < 1 := by linarith only [e, l_s25c, l_s25v, l_s24v, l_s23v, l_s21v, l_p20l, l_p5l, l_p1l, u_x_w2_y_w2, u_x_w0_y_w2, u_x_w3_y_w2, u_x_w1_y_w2, u_x_w2_y_w1, u_x_w3_y_w1, u_x_w1_y_w1, u_x_w3_y_w0, u_x_w2_y_w0]
    omega
  have z_s31 : s31c = 0 := by
    have e : 13407807929942597099574024998205846127479365820592393377723561443721764030073546976801874298166903427690031858186486050853753882811946569946433649006084096 * s31c + 726838724295606890549323807888004534353641360687318060281490199180639288113397923326191050713763565560762521606266177933534601628614656 * s31v + 39402006196394479212279040100143613805079739270465446667948293404245721771497210611414266254884915640806627990306816 * s30v + 2135987035920910082395021706169552114602704522356652769947041607822219725780640550022962086936576 * s28v + 115792089237316195423570985008687907853269984665640564039457584007913129639936 * s27v + 6277101735386680763835789423207666416102355444464034512896 * s21v + 340282366920938463463374607431768211456 * p20l + 340282366920938463463374607431768211456 * p5l + 340282366920938463463374607431768211456 * p1l = 39402006196394479212279040100143613805079739270465446667948293404245721771497210611414266254884915640806627990306816 * (x_w3 * y_w3) + 115792089237316195423570985008687907853269984665640564039457584007913129639936 * (x_w1 * y_w3) + 115792089237316195423570985008687907853269984665640564039457584007913129639936 * (x_w2 * y_w2) + 340282366920938463463374607431768211456 * (x_w0 * y_w2) + 2135987035920910082395021706169552114602704522356652769947041607822219725780640550022962086936576 * (x_w3 * y_w2) + 6277101735386680763835789423207666416102355444464034512896 * (x_w1 * y_w2) + 6277101735386680763835789423207666416102355444464034512896 * (x_w2 * y_w1) + 115792089237316195423570985008687907853269984665640564039457584007913129639936 * (x_w3 * y_w1) + 340282366920938463463374607431768211456 * (x_w1 * y_w1) + 6277101735386680763835789423207666416102355444464034512896 * (x_w3 * y_w0) + 340282366920938463463374607431768211456 * (x_w2 * y_w0) := by
      linear_combination 726838724295606890549323807888004534353641360687318060281490199180639288113397923326191050713763565560762521606266177933534601628614656 * e_s31 + 39402006196394479212279040100143613805079739270465446667948293404245721771497210611414266254884915640806627990306816 * e_s30 + 39402006196394479212279040100143613805079739270465446667948293404245721771497210611414266254884915640806627990306816 * e_p29 + 2135987035920910082395021706169552114602704522356652769947041607822219725780640550022962086936576 * e_s28 + 115792089237316195423570985008687907853269984665640564039457584007913129639936 * e_s27 + 115792089237316195423570985008687907853269984665640564039457584007913129639936 * e_p26 + 39402006196394479212279040100143613805079739270465446667948293404245721771497210611414266254884915640806627990306816 * e_s25 + 2135987035920910082395021706169552114602704522356652769947041607822219725780640550022962086936576 * e_s24 + 115792089237316195423570985008687907853269984665640564039457584007913129639936 * e_s23 + 115792089237316195423570985008687907853269984665640564039457584007913129639936 * e_p22 + 6277101735386680763835789423207666416102355444464034512896 * e_s21 + 340282366920938463463374607431768211456 * e_p20 + 39402006196394479212279040100143613805079739270465446667948293404245721771497210611414266254884915640806627990306816 * e_s19 + 2135987035920910082395021706169552114602704522356652769947041607822219725780640550022962086936576 * e_s18 + 2135987035920910082395021706169552114602704522356652769947041607822219725780640550022962086936576 * e_p17 + 115792089237316195423570985008687907853269984665640564039457584007913129639936 * e_s16 + 6277101735386680763835789423207666416102355444464034512896 * e_s15 + 6277101735386680763835789423207666416102355444464034512896 * e_p14 + 2135987035920910082395021706169552114602704522356652769947041607822219725780640550022962086936576 * e_s13 + 115792089237316195423570985008687907853269984665640564039457584007913129639936 * e_s12 + 6277101735386680763835789423207666416102355444464034512896 * e_s11 + 6277101735386680763835789423207666416102355444464034512896 * e_p10 + 2135987035920910082395021706169552114602704522356652769947041607822219725780640550022962086936576 * e_s9 + 115792089237316195423570985008687907853269984665640564039457584007913129639936 * e_s8 + 115792089237316195423570985008687907853269984665640564039457584007913129639936 * e_p7 + 6277101735386680763835789423207666416102355444464034512896 * e_s6 + 340282366920938463463374607431768211456 * e_p5 + 115792089237316195423570985008687907853269984665640564039457584007913129639936 * e_s4 + 6277101735386680763835789423207666416102355444464034512896 * e_s3 + 6277101735386680763835789423207666416102355444464034512896 * e_p2 + 340282366920938463463374607431768211456 * e_p1 + -726838724295606890549323807888004534353641360687318060281490199180639288113397923326191050713763565560762521606266177933534601628614656 * z_s25 + -726838724295606890549323807888004534353641360687318060281490199180639288113397923326191050713763565560762521606266177933534601628614656 * z_s19 + -39402006196394479212279040100143613805079739270465446667948293404245721771497210611414266254884915640806627990306816 * z_s13 + -39402006196394479212279040100143613805079739270465446667948293404245721771497210611414266254884915640806627990306816 * z_s9 + -2135987035920910082395021706169552114602704522356652769947041607822219725780640550022962086936576 * z_s4
    have : s31c < 1 := by linarith only [e, l_s31c, l_s31v, l_s30v, l_s28v, l_s27v, l_s21v, l_p20l, l_p5l, l_p1l, u_x_w3_y_w3, u_x_w1_y_w3, u_x_w2_y_w2, u_x_w0_y_w2, u_x_w3_y_w2, u_x_w1_y_w2, u_x_w2_y_w1, u_x_w3_y_w1, u_x_w1_y_w1, u_x_w3_y_w0, u_x_w2_y_w0]
    omega
  have z_s38 : s38c = 0 := by
    have e : 13407807929942597099574024998205846127479365820592393377723561443721764030073546976801874298166903427690031858186486050853753882811946569946433649006084096 * s38c + 726838724295606890549323807888004534353641360687318060281490199180639288113397923326191050713763565560762521606266177933534601628614656 * s38v + 39402006196394479212279040100143613805079739270465446667948293404245721771497210611414266254884915640806627990306816 * s37v + 2135987035920910082395021706169552114602704522356652769947041607822219725780640550022962086936576 * s36v + 115792089237316195423570985008687907853269984665640564039457584007913129639936 * s34v + 6277101735386680763835789423207666416102355444464034512896 * s33v + 340282366920938463463374607431768211456 * p20l + 340282366920938463463374607431768211456 * p5l + 340282366920938463463374607431768211456 * p1l = 2135987035920910082395021706169552114602704522356652769947041607822219725780640550022962086936576 * (x_w2 * y_w3) + 6277101735386680763835789423207666416102355444464034512896 * (x_w0 * y_w3) + 39402006196394479212279040100143613805079739270465446667948293404245721771497210611414266254884915640806627990306816 * (x_w3 * y_w3) + 115792089237316195423570985008687907853269984665640564039457584007913129639936 * (x_w1 * y_w3) + 115792089237316195423570985008687907853269984665640564039457584007913129639936 * (x_w2 * y_w2) + 340282366920938463463374607431768211456 * (x_w0 * y_w2) + 2135987035920910082395021706169552114602704522356652769947041607822219725780640550022962086936576 * (x_w3 * y_w2) + 6277101735386680763835789423207666416102355444464034512896 * (x_w1 * y_w2) + 6277101735386680763835789423207666416102355444464034512896 * (x_w2 * y_w1) + 115792089237316195423570985008687907853269984665640564039457584007913129639936 * (x_w3 * y_w1) + 340282366920938463463374607431768211456 * (x_w1 * y_w1) + 6277101735386680763835789423207666416102355444464034512896 * (x_w3 * y_w0) + 340282366920938463463374607431768211456 * (x_w2 * y_w0) := by
      linear_combination 726838724295606890549323807888004534353641360687318060281490199180639288113397923326191050713763565560762521606266177933534601628614656 * e_s38 + 39402006196394479212279040100143613805079739270465446667948293404245721771497210611414266254884915640806627990306816 * e_s37 + 2135987035920910082395021706169552114602704522356652769947041607822219725780640550022962086936576 * e_s36 + 2135987035920910082395021706169552114602704522356652769947041607822219725780640550022962086936576 * e_p35 + 115792089237316195423570985008687907853269984665640564039457584007913129639936 * e_s34 + 6277101735386680763835789423207666416102355444464034512896 * e_s33 + 6277101735386680763835789423207666416102355444464034512896 * e_p32 + 726838724295606890549323807888004534353641360687318060281490199180639288113397923326191050713763565560762521606266177933534601628614656 * e_s31 + 39402006196394479212279040100143613805079739270465446667948293404245721771497210611414266254884915640806627990306816 * e_s30 + 39402006196394479212279040100143613805079739270465446667948293404245721771497210611414266254884915640806627990306816 * e_p29 + 2135987035920910082395021706169552114602704522356652769947041607822219725780640550022962086936576 * e_s28 + 115792089237316195423570985008687907853269984665640564039457584007913129639936 * e_s27 + 115792089237316195423570985008687907853269984665640564039457584007913129639936 * e_p26 + 39402006196394479212279040100143613805079739270465446667948293404245721771497210611414266254884915640806627990306816 * e_s25 + 2135987035920910082395021706169552114602704522356652769947041607822219725780640550022962086936576 * e_s24 + 115792089237316195423570985008687907853269984665640564039457584007913129639936 * e_s23 + 115792089237316195423570985008687907853269984665640564039457584007913129639936 * e_p22 + 6277101735386680763835789423207666416102355444464034512896 * e_s21 + 340282366920938463463374607431768211456 * e_p20 + 39402006196394479212279040100143613805079739270465446667948293404245721771497210611414266254884915640806627990306816 * e_s19 + 2135987035920910082395021706169552114602704522356652769947041607822219725780640550022962086936576 * e_s18 + 2135987035920910082395021706169552114602704522356652769947041607822219725780640550022962086936576 * e_p17 + 115792089237316195423570985008687907853269984665640564039457584007913129639936 * e_s16 + 6277101735386680763835789423207666416102355444464034512896 * e_s15 + 6277101735386680763835789423207666416102355444464034512896 * e_p14 + 2135987035920910082395021706169552114602704522356652769947041607822219725780640550022962086936576 * e_s13 + 115792089237316195423570985008687907853269984665640564039457584007913129639936 * e_s12 + 6277101735386680763835789423207666416102355444464034512896 * e_s11 + 6277101735386680763835789423207666416102355444464034512896 * e_p10 + 2135987035920910082395021706169552114602704522356652769947041607822219725780640550022962086936576 * e_s9 + 115792089237316195423570985008687907853269984665640564039457584007913129639936 * e_s8 + 115792089237316195423570985008687907853269984665640564039457584007913129639936 * e_p7 + 6277101735386680763835789423207666416102355444464034512896 * e_s6 + 340282366920938463463374607431768211456 * e_p5 + 115792089237316195423570985008687907853269984665640564039457584007913129639936 * e_s4 + 6277101735386680763835789423207666416102355444464034512896 * e_s3 + 6277101735386680763835789423207666416102355444464034512896 * e_p2 + 340282366920938463463374607431768211456 * e_p1 + -13407807929942597099574024998205846127479365820592393377723561443721764030073546976801874298166903427690031858186486050853753882811946569946433649006084096 * z_s31 + -726838724295606890549323807888004534353641360687318060281490199180639288113397923326191050713763565560762521606266177933534601628614656 * z_s25 + -726838724295606890549323807888004534353641360687318060281490199180639288113397923326191050713763565560762521606266177933534601628614656 * z_s19 + -39402006196394479212279040100143613805079739270465446667948293404245721771497210611414266254884915640806627990306816 * z_s13 + -39402006196394479212279040100143613805079739270465446667948293404245721771497210611414266254884915640806627990306816 * z_s9 + -2135987035920910082395021706169552114602704522356652769947041607822219725780640550022962086936576 * z_s4
    have : s38c < 1 := by linarith only [e, l_s38c, l_s38v, l_s37v, l_s36v, l_s34v, l_s33v, l_p20l, l_p5l, l_p1l, u_x_w2_y_w3, u_x_w0_y_w3, u_x_w3_y_w3, u_x_w1_y_w3, u_x_w2_y_w2, u_x_w0_y_w2, u_x_w3_y_w2, u_x_w1_y_w2, u_x_w2_y_w1, u_x_w3_y_w1, u_x_w1_y_w1, u_x_w3_y_w0, u_x_w2_y_w0]
    omega
  have e : 6277101735386680763835789423207666416102355444464034512896 * s33v + 115792089237316195423570985008687907853269984665640564039457584007913129639936 * s34v + 2135987035920910082395021706169552114602704522356652769947041607822219725780640550022962086936576 * s36v + 39402006196394479212279040100143613805079739270465446667948293404245721771497210611414266254884915640806627990306816 * s37v + 726838724295606890549323807888004534353641360687318060281490199180639288113397923326191050713763565560762521606266177933534601628614656 * s38v + 340282366920938463463374607431768211456 * p20l + 340282366920938463463374607431768211456 * p5l + 340282366920938463463374607431768211456 * p1l = 2135987035920910082395021706169552114602704522356652769947041607822219725780640550022962086936576 * (x_w2 * y_w3) + 6277101735386680763835789423207666416102355444464034512896 * (x_w0 * y_w3) + 39402006196394479212279040100143613805079739270465446667948293404245721771497210611414266254884915640806627990306816 * (x_w3 * y_w3) + 115792089237316195423570985008687907853269984665640564039457584007913129639936 * (x_w1 * y_w3) + 115792089237316195423570985008687907853269984665640564039457584007913129639936 * (x_w2 * y_w2) + 340282366920938463463374607431768211456 * (x_w0 * y_w2) + 2135987035920910082395021706169552114602704522356652769947041607822219725780640550022962086936576 * (x_w3 * y_w2) + 6277101735386680763835789423207666416102355444464034512896 * (x_w1 * y_w2) + 6277101735386680763835789423207666416102355444464034512896 * (x_w2 * y_w1) + 115792089237316195423570985008687907853269984665640564039457584007913129639936 * (x_w3 * y_w1) + 340282366920938463463374607431768211456 * (x_w1 * y_w1) + 6277101735386680763835789423207666416102355444464034512896 * (x_w3 * y_w0) + 340282366920938463463374607431768211456 * (x_w2 * y_w0) := by
    linear_combination 726838724295606890549323807888004534353641360687318060281490199180639288113397923326191050713763565560762521606266177933534601628614656 * e_s38 + 39402006196394479212279040100143613805079739270465446667948293404245721771497210611414266254884915640806627990306816 * e_s37 + 2135987035920910082395021706169552114602704522356652769947041607822219725780640550022962086936576 * e_s36 + 2135987035920910082395021706169552114602704522356652769947041607822219725780640550022962086936576 * e_p35 + 115792089237316195423570985008687907853269984665640564039457584007913129639936 * e_s34 + 6277101735386680763835789423207666416102355444464034512896 * e_s33 + 6277101735386680763835789423207666416102355444464034512896 * e_p32 + 726838724295606890549323807888004534353641360687318060281490199180639288113397923326191050713763565560762521606266177933534601628614656 * e_s31 + 39402006196394479212279040100143613805079739270465446667948293404245721771497210611414266254884915640806627990306816 * e_s30 + 39402006196394479212279040100143613805079739270465446667948293404245721771497210611414266254884915640806627990306816 * e_p29 + 2135987035920910082395021706169552114602704522356652769947041607822219725780640550022962086936576 * e_s28 + 115792089237316195423570985008687907853269984665640564039457584007913129639936 * e_s27 + 115792089237316195423570985008687907853269984665640564039457584007913129639936 * e_p26 + 39402006196394479212279040100143613805079739270465446667948293404245721771497210611414266254884915640806627990306816 * e_s25 + 2135987035920910082395021706169552114602704522356652769947041607822219725780640550022962086936576 * e_s24 + 115792089237316195423570985008687907853269984665640564039457584007913129639936 * e_s23 + 115792089237316195423570985008687907853269984665640564039457584007913129639936 * e_p22 + 6277101735386680763835789423207666416102355444464034512896 * e_s21 + 340282366920938463463374607431768211456 * e_p20 + 39402006196394479212279040100143613805079739270465446667948293404245721771497210611414266254884915640806627990306816 * e_s19 + 2135987035920910082395021706169552114602704522356652769947041607822219725780640550022962086936576 * e_s18 + 2135987035920910082395021706169552114602704522356652769947041607822219725780640550022962086936576 * e_p17 + 115792089237316195423570985008687907853269984665640564039457584007913129639936 * e_s16 + 6277101735386680763835789423207666416102355444464034512896 * e_s15 + 6277101735386680763835789423207666416102355444464034512896 * e_p14 + 2135987035920910082395021706169552114602704522356652769947041607822219725780640550022962086936576 * e_s13 + 115792089237316195423570985008687907853269984665640564039457584007913129639936 * e_s12 + 6277101735386680763835789423207666416102355444464034512896 * e_s11 + 6277101735386680763835789423207666416102355444464034512896 * e_p10 + 2135987035920910082395021706169552114602704522356652769947041607822219725780640550022962086936576 * e_s9 + 115792089237316195423570985008687907853269984665640564039457584007913129639936 * e_s8 + 115792089237316195423570985008687907853269984665640564039457584007913129639936 * e_p7 + 6277101735386680763835789423207666416102355444464034512896 * e_s6 + 340282366920938463463374607431768211456 * e_p5 + 115792089237316195423570985008687907853269984665640564039457584007913129639936 * e_s4 + 6277101735386680763835789423207666416102355444464034512896 * e_s3 + 6277101735386680763835789423207666416102355444464034512896 * e_p2 + 340282366920938463463374607431768211456 * e_p1 + -13407807929942597099574024998205846127479365820592393377723561443721764030073546976801874298166903427690031858186486050853753882811946569946433649006084096 * z_s38 + -13407807929942597099574024998205846127479365820592393377723561443721764030073546976801874298166903427690031858186486050853753882811946569946433649006084096 * z_s31 + -726838724295606890549323807888004534353641360687318060281490199180639288113397923326191050713763565560762521606266177933534601628614656 * z_s25 + -726838724295606890549323807888004534353641360687318060281490199180639288113397923326191050713763565560762521606266177933534601628614656 * z_s19 + -39402006196394479212279040100143613805079739270465446667948293404245721771497210611414266254884915640806627990306816 * z_s13 + -39402006196394479212279040100143613805079739270465446667948293404245721771497210611414266254884915640806627990306816 * z_s9 + -2135987035920910082395021706169552114602704522356652769947041607822219725780640550022962086936576 * z_s4
  have f : (x_w0 + 18446744073709551616 * x_w1 + 340282366920938463463374607431768211456 * x_w2 + 6277101735386680763835789423207666416102355444464034512896 * x_w3) * (y_w0 + 18446744073709551616 * y_w1 + 340282366920938463463374607431768211456 * y_w2 + 6277101735386680763835789423207666416102355444464034512896 * y_w3) = 1 * (x_w0 * y_w0) + 18446744073709551616 * (x_w0 * y_w1) + 340282366920938463463374607431768211456 * (x_w0 * y_w2) + 6277101735386680763835789423207666416102355444464034512896 * (x_w0 * y_w3) + 18446744073709551616 * (x_w1 * y_w0) + 340282366920938463463374607431768211456 * (x_w1 * y_w1) + 6277101735386680763835789423207666416102355444464034512896 * (x_w1 * y_w2) + 115792089237316195423570985008687907853269984665640564039457584007913129639936 * (x_w1 * y_w3) + 340282366920938463463374607431768211456 * (x_w2 * y_w0) + 6277101735386680763835789423207666416102355444464034512896 * (x_w2 * y_w1) + 115792089237316195423570985008687907853269984665640564039457584007913129639936 * (x_w2 * y_w2) + 2135987035920910082395021706169552114602704522356652769947041607822219725780640550022962086936576 * (x_w2 * y_w3) + 6277101735386680763835789423207666416102355444464034512896 * (x_w3 * y_w0) + 115792089237316195423570985008687907853269984665640564039457584007913129639936 * (x_w3 * y_w1) + 2135987035920910082395021706169552114602704522356652769947041607822219725780640550022962086936576 * (x_w3 * y_w2) + 39402006196394479212279040100143613805079739270465446667948293404245721771497210611414266254884915640806627990306816 * (x_w3 * y_w3) := by ring
  rw [f]
  constructor
  · linarith only [e, l_p20l, l_p5l, l_p1l, l_x_w0_y_w0, l_x_w0_y_w1, l_x_w1_y_w0]
  · linarith only [e, u_p20l, u_p5l, u_p1l, u_x_w0_y_w0, u_x_w0_y_w1, u_x_w1_y_w0]

theorem recipMul3_spec (x y : U256) :
    6277101735386680763835789423207666416102355444464034512896 * ((recipMul3 x y).toNat : ℤ) ≤ x.toNat * y.toNat ∧ (x.toNat * y.toNat : ℤ) < 6277101735386680763835789423207666416102355444464034512896 * ((recipMul3 x y).toNat + 8) := by
  unfold recipMul3
  extract_lets p1 p2 s3 s4 p5 s6 p7 s8 s9 p10 s11 s12 s13 p14 s15 s16 p17 s18 s19 p20 s21 p22 s23 s24 s25 p26 s27 s28 p29 s30 s31 p32 s33 s34 p35 s36 s37 s38
  have e_p1 : (p1.2.toNat : ℤ) + 18446744073709551616 * p1.1.toNat = x.w2.toNat * y.w0.toNat := mulZ _ _
  have e_p2 : (p2.2.toNat : ℤ) + 18446744073709551616 * p2.1.toNat = x.w3.toNat * y.w0.toNat := mulZ _ _
  have e_s3 : (s3.1.toNat : ℤ) + 18446744073709551616 * s3.2.toNat = p1.1.toNat + p2.2.toNat ∧ s3.2.toNat ≤ 1 := addZc _ _
  have e_s4 : (s4.1.toNat : ℤ) + 18446744073709551616 * s4.2.toNat = p2.1.toNat + s3.2.toNat ∧ s4.2.toNat ≤ 1 := addZ0 _ _ e_s3.2
  have e_p5 : (p5.2.toNat : ℤ) + 18446744073709551616 * p5.1.toNat = x.w1.toNat * y.w1.toNat := mulZ _ _
  have e_s6 : (s6.1.toNat : ℤ) + 18446744073709551616 * s6.2.toNat = s3.1.toNat + p5.1.toNat ∧ s6.2.toNat ≤ 1 := addZc _ _
  have e_p7 : (p7.2.toNat : ℤ) + 18446744073709551616 * p7.1.toNat = x.w3.toNat * y.w1.toNat := mulZ _ _
  have e_s8 : (s8.1.toNat : ℤ) + 18446744073709551616 * s8.2.toNat = s4.1.toNat + p7.2.toNat + s6.2.toNat ∧ s8.2.toNat ≤ 1 := addZ _ _ _ e_s6.2
  have e_s9 : (s9.1.toNat : ℤ) + 18446744073709551616 * s9.2.toNat = p7.1.toNat + s8.2.toNat ∧ s9.2.toNat ≤ 1 := addZ0 _ _ e_s8.2
  have e_p10 : (p10.2.toNat : ℤ) + 18446744073709551616 * p10.1.toNat = x.w2.toNat * y.w1.toNat := mulZ _ _
  have e_s11 : (s11.1.toNat : ℤ) + 18446744073709551616 * s11.2.toNat = s6.1.toNat + p10.2.toNat ∧ s11.2.toNat ≤ 1 := addZc _ _
  have e_s12 : (s12.1.toNat : ℤ) + 18446744073709551616 * s12.2.toNat = s8.1.toNat + p10.1.toNat + s11.2.toNat ∧ s12.2.toNat ≤ 1 := addZ _ _ _ e_s11.2
  have e_s13 : (s13.1.toNat : ℤ) + 18446744073709551616 * s13.2.toNat = s9.1.toNat + s12.2.toNat ∧ s13.2.toNat ≤ 1 := addZ0 _ _ e_s12.2
  have e_p14 : (p14.2.toNat : ℤ) + 18446744073709551616 * p14.1.toNat = x.w1.toNat * y.w2.toNat := mulZ _ _
  have e_s15 : (s15.1.toNat : ℤ) + 18446744073709551616 * s15.2.toNat = s11.1.toNat + p14.2.toNat ∧ s15.2.toNat ≤ 1 := addZc _ _
  have e_s16 : (s16.1.toNat : ℤ) + 18446744073709551616 * s16.2.toNat = s12.1.toNat + p14.1.toNat + s15.2.toNat ∧ s16.2.toNat ≤ 1 := addZ _ _ _ e_s15.2
  have e_p17 : (p17.2.toNat : ℤ) + 18446744073709551616 * p17.1.toNat = x.w3.toNat * y.w2.toNat := mulZ _ _
  have e_s18 : (s18.1.toNat : ℤ) + 18446744073709551616 * s18.2.toNat = s13.1.toNat + p17.2.toNat + s16.2.toNat ∧ s18.2.toNat ≤ 1 := addZ _ _ _ e_s16.2
  have e_s19 : (s19.1.toNat : ℤ) + 18446744073709551616 * s19.2.toNat = p17.1.toNat + s18.2.toNat ∧ s19.2.toNat ≤ 1 := addZ0 _ _ e_s18.2
  have e_p20 : (p20.2.toNat : ℤ) + 18446744073709551616 * p20.1.toNat = x.w0.toNat * y.w2.toNat := mulZ _ _
  have e_s21 : (s21.1.toNat : ℤ) + 18446744073709551616 * s21.2.toNat = s15.1.toNat + p20.1.toNat ∧ s21.2.toNat ≤ 1 := addZc _ _
  have e_p22 : (p22.2.toNat : ℤ) + 18446744073709551616 * p22.1.toNat = x.w2.toNat * y.w2.toNat := mulZ _ _
  have e_s23 : (s23.1.toNat : ℤ) + 18446744073709551616 * s23.2.toNat = s16.1.toNat + p22.2.toNat + s21.2.toNat ∧ s23.2.toNat ≤ 1 := addZ _ _ _ e_s21.2
  have e_s24 : (s24.1.toNat : ℤ) + 18446744073709551616 * s24.2.toNat = s18.1.toNat + p22.1.toNat + s23.2.toNat ∧ s24.2.toNat ≤ 1 := addZ _ _ _ e_s23.2
  have e_s25 : (s25.1.toNat : ℤ) + 18446744073709551616 * s25.2.toNat = s19.1.toNat + s24.2.toNat ∧ s25.2.toNat ≤ 1 := addZ0 _ _ e_s24.2
  have e_p26 : (p26.2.toNat : ℤ) + 18446744073709551616 * p26.1.toNat = x.w1.toNat * y.w3.toNat := mulZ _ _
  have e_s27 : (s27.1.toNat : ℤ) + 18446744073709551616 * s27.2.toNat = s23.1.toNat + p26.2.toNat ∧ s27.2.toNat ≤ 1 := addZc _ _
  have e_s28 : (s28.1.toNat : ℤ) + 18446744073709551616 * s28.2.toNat = s24.1.toNat + p26.1.toNat + s27.2.toNat ∧ s28.2.toNat ≤ 1 := addZ _ _ _ e_s27.2
  have e_p29 : (p29.2.toNat : ℤ) + 18446744073709551616 * p29.1.toNat = x.w3.toNat * y.w3.toNat := mulZ _ _
  have e_s30 : (s30.1.toNat : ℤ) + 18446744073709551616 * s30.2.toNat = s25.1.toNat + p29.2.toNat + s28.2.toNat ∧ s30.2.toNat ≤ 1 := addZ _ _ _ e_s28.2
  have e_s31 : (s31.1.toNat : ℤ) + 18446744073709551616 * s31.2.toNat = p29.1.toNat + s30.2.toNat ∧ s31.2.toNat ≤ 1 := addZ0 _ _ e_s30.2
  have e_p32 : (p32.2.toNat : ℤ) + 18446744073709551616 * p32.1.toNat = x.w0.toNat * y.w3.toNat := mulZ _ _
  have e_s33 : (s33.1.toNat : ℤ) + 18446744073709551616 * s33.2.toNat = s21.1.toNat + p32.2.toNat ∧ s33.2.toNat ≤ 1 := addZc _ _
  have e_s34 : (s34.1.toNat : ℤ) + 18446744073709551616 * s34.2.toNat = s27.1.toNat + p32.1.toNat + s33.2.toNat ∧ s34.2.toNat ≤ 1 := addZ _ _ _ e_s33.2
  have e_p35 : (p35.2.toNat : ℤ) + 18446744073709551616 * p35.1.toNat = x.w2.toNat * y.w3.toNat := mulZ _ _
  have e_s36 : (s36.1.toNat : ℤ) + 18446744073709551616 * s36.2.toNat = s28.1.toNat + p35.2.toNat + s34.2.toNat ∧ s36.2.toNat ≤ 1 := addZ _ _ _ e_s34.2
  have e_s37 : (s37.1.toNat : ℤ) + 18446744073709551616 * s37.2.toNat = s30.1.toNat + p35.1.toNat + s36.2.toNat ∧ s37.2.toNat ≤ 1 := addZ _ _ _ e_s36.2
  have e_s38 : (s38.1.toNat : ℤ) + 18446744073709551616 * s38.2.toNat = s31.1.toNat + s37.2.toNat ∧ s38.2.toNat ≤ 1 := addZ0 _ _ e_s37.2
  clear_value p1 p2 s3 s4 p5 s6 p7 s8 s9 p10 s11 s12 s13 p14 s15 s16 p17 s18 s19 p20 s21 p22 s23 s24 s25 p26 s27 s28 p29 s30 s31 p32 s33 s34 p35 s36 s37 s38
  have h := recipMul3_core wL wU wL wU wL wU wL wU wL wU wL wU wL wU wL wU e_p1 wL wU e_p2 e_s3.1 wL e_s4.1 wL wL e_p5 wL wU e_s6.1 wL e_p7 e_s8.1 wL e_s9.1 wL wL e_p10 e_s11.1 wL e_s12.1 wL e_s13.1 wL wL e_p14 e_s15.1 wL e_s16.1 wL e_p17 e_s18.1 wL e_s19.1 wL wL e_p20 wL wU e_s21.1 wL e_p22 e_s23.1 wL e_s24.1 wL e_s25.1 wL wL e_p26 e_s27.1 wL e_s28.1 wL e_p29 e_s30.1 wL e_s31.1 wL wL e_p32 e_s33.1 wL e_s34.1 wL e_p35 e_s36.1 wL e_s37.1 wL e_s38.1 wL wL
  rw [Words5.toZ, U256.toZ x, U256.toZ y]
  exact h

theorem recipSq2_core {r2_w0 r2_w1 p1h p1l p2h p2l p3h p3l s4v s4c s5v s5c s6v s6c s7v s7c s8v s8c s9v s9c : ℤ}
    (l_r2_w0 : 0 ≤ r2_w0)
    (u_r2_w0 : r2_w0 ≤ 18446744073709551615)
    (l_r2_w1 : 0 ≤ r2_w1)
    (u_r2_w1 : r2_w1 ≤ 18446744073709551615)
    (e_p1 : p1l + 18446744073709551616 * p1h = r2_w0 * r2_w0)
    (l_p1l : 0 ≤ p1l)
    (e_p2 : p2l + 18446744073709551616 * p2h = r2_w0 * r2_w1)
    (e_p3 : p3l + 18446744073709551616 * p3h = r2_w1 * r2_w1)
    (e_s4 : s4v + 18446744073709551616 * s4c = p1h + p2l)
    (l_s4v : 0 ≤ s4v)
    (e_s5 : s5v + 18446744073709551616 * s5c = p3l + p2h + s4c)
    (l_s5v : 0 ≤ s5v)
    (e_s6 : s6v + 18446744073709551616 * s6c = p3h + s5c)
    (l_s6v : 0 ≤ s6v)
    (l_s6c : 0 ≤ s6c)
    (e_s7 : s7v + 18446744073709551616 * s7c = s4v + p2l)
    (l_s7v : 0 ≤ s7v)
    (e_s8 : s8v + 18446744073709551616 * s8c = s5v + p2h + s7c)
    (l_s8v : 0 ≤ s8v)
    (e_s9 : s9v + 18446744073709551616 * s9c = s6v + s8c)
    (l_s9v : 0 ≤ s9v)
    (l_s9c : 0 ≤ s9c) :
    p1l + 18446744073709551616 * s7v + 340282366920938463463374607431768211456 * s8v + 6277101735386680763835789423207666416102355444464034512896 * s9v = (r2_w0 + 18446744073709551616 * r2_w1) * (r2_w0 + 18446744073709551616 * r2_w1) := by
  have l_r2_w0_r2_w0 : 0 ≤ r2_w0 * r2_w0 := mul_nonneg l_r2_w0 l_r2_w0
  have u_r2_w0_r2_w0 : r2_w0 * r2_w0 ≤ 340282366920938463426481119284349108225 := prod_le l_r2_w0 u_r2_w0 u_r2_w0
  have l_r2_w0_r2_w1 : 0 ≤ r2_w0 * r2_w1 := mul_nonneg l_r2_w0 l_r2_w1
  have u_r2_w0_r2_w1 : r2_w0 * r2_w1 ≤ 340282366920938463426481119284349108225 := prod_le l_r2_w1 u_r2_w0 u_r2_w1
  have l_r2_w1_r2_w0 : 0 ≤ r2_w1 * r2_w0 := mul_nonneg l_r2_w1 l_r2_w0
  have u_r2_w1_r2_w0 : r2_w1 * r2_w0 ≤ 340282366920938463426481119284349108225 := prod_le l_r2_w0 u_r2_w1 u_r2_w0
  have l_r2_w1_r2_w1 : 0 ≤ r2_w1 * r2_w1 := mul_nonneg l_r2_w1 l_r2_w1
  have u_r2_w1_r2_w1 : r2_w1 * r2_w1 ≤ 340282366920938463426481119284349108225 := prod_le l_r2_w1 u_r2_w1 u_r2_w1
  have z_s6 : s6c = 0 := by
    have e : 115792089237316195423570985008687907853269984665640564039457584007913129639936 * s6c + 6277101735386680763835789423207666416102355444464034512896 * s6v + 340282366920938463463374607431768211456 * s5v + 18446744073709551616 * s4v + 1 * p1l = 340282366920938463463374607431768211456 * (r2_w1 * r2_w1) + 18446744073709551616 * (r2_w0 * r2_w1) + 1 * (r2_w0 * r2_w0) := by
      linear_combination 6277101735386680763835789423207666416102355444464034512896 * e_s6 + 340282366920938463463374607431768211456 * e_s5 + 18446744073709551616 * e_s4 + 340282366920938463463374607431768211456 * e_p3 + 18446744073709551616 * e_p2 + 1 * e_p1
    have : s6c < 1 := by linarith only [e, l_s6c, l_s6v, l_s5v, l_s4v, l_p1l, u_r2_w1_r2_w1, u_r2_w0_r2_w1, u_r2_w0_r2_w0]
    omega
  have z_s9 : s9c = 0 := by
    have e : 115792089237316195423570985008687907853269984665640564039457584007913129639936 * s9c + 6277101735386680763835789423207666416102355444464034512896 * s9v + 340282366920938463463374607431768211456 * s8v + 18446744073709551616 * s7v + 1 * p1l = 340282366920938463463374607431768211456 * (r2_w1 * r2_w1) + 36893488147419103232 * (r2_w0 * r2_w1) + 1 * (r2_w0 * r2_w0) := by
      linear_combination 6277101735386680763835789423207666416102355444464034512896 * e_s9 + 340282366920938463463374607431768211456 * e_s8 + 18446744073709551616 * e_s7 + 6277101735386680763835789423207666416102355444464034512896 * e_s6 + 340282366920938463463374607431768211456 * e_s5 + 18446744073709551616 * e_s4 + 340282366920938463463374607431768211456 * e_p3 + 36893488147419103232 * e_p2 + 1 * e_p1 + -115792089237316195423570985008687907853269984665640564039457584007913129639936 * z_s6
    have : s9c < 1 := by linarith only [e, l_s9c, l_s9v, l_s8v, l_s7v, l_p1l, u_r2_w1_r2_w1, u_r2_w0_r2_w1, u_r2_w0_r2_w0]
    omega
  linear_combination 6277101735386680763835789423207666416102355444464034512896 * e_s9 + 340282366920938463463374607431768211456 * e_s8 + 18446744073709551616 * e_s7 + 6277101735386680763835789423207666416102355444464034512896 * e_s6 + 340282366920938463463374607431768211456 * e_s5 + 18446744073709551616 * e_s4 + 340282366920938463463374607431768211456 * e_p3 + 36893488147419103232 * e_p2 + 1 * e_p1 + -115792089237316195423570985008687907853269984665640564039457584007913129639936 * z_s9 + -115792089237316195423570985008687907853269984665640564039457584007913129639936 * z_s6

theorem recipSq2_spec (r2 : Words2) :
    ((recipSq2 r2).toNat : ℤ) = r2.toNat * r2.toNat := by
  unfold recipSq2
  extract_lets p1 p2 p3 s4 s5 s6 s7 s8 s9
  have e_p1 : (p1.2.toNat : ℤ) + 18446744073709551616 * p1.1.toNat = r2.w0.toNat * r2.w0.toNat := mulZ _ _
  have e_p2 : (p2.2.toNat : ℤ) + 18446744073709551616 * p2.1.toNat = r2.w0.toNat * r2.w1.toNat := mulZ _ _
  have e_p3 : (p3.2.toNat : ℤ) + 18446744073709551616 * p3.1.toNat = r2.w1.toNat * r2.w1.toNat := mulZ _ _
  have e_s4 : (s4.1.toNat : ℤ) + 18446744073709551616 * s4.2.toNat = p1.1.toNat + p2.2.toNat ∧ s4.2.toNat ≤ 1 := addZc _ _
  have e_s5 : (s5.1.toNat : ℤ) + 18446744073709551616 * s5.2.toNat = p3.2.toNat + p2.1.toNat + s4.2.toNat ∧ s5.2.toNat ≤ 1 := addZ _ _ _ e_s4.2
  have e_s6 : (s6.1.toNat : ℤ) + 18446744073709551616 * s6.2.toNat = p3.1.toNat + s5.2.toNat ∧ s6.2.toNat ≤ 1 := addZ0 _ _ e_s5.2
  have e_s7 : (s7.1.toNat : ℤ) + 18446744073709551616 * s7.2.toNat = s4.1.toNat + p2.2.toNat ∧ s7.2.toNat ≤ 1 := addZc _ _
  have e_s8 : (s8.1.toNat : ℤ) + 18446744073709551616 * s8.2.toNat = s5.1.toNat + p2.1.toNat + s7.2.toNat ∧ s8.2.toNat ≤ 1 := addZ _ _ _ e_s7.2
  have e_s9 : (s9.1.toNat : ℤ) + 18446744073709551616 * s9.2.toNat = s6.1.toNat + s8.2.toNat ∧ s9.2.toNat ≤ 1 := addZ0 _ _ e_s8.2
  clear_value p1 p2 p3 s4 s5 s6 s7 s8 s9
  have h := recipSq2_core wL wU wL wU e_p1 wL e_p2 e_p3 e_s4.1 wL e_s5.1 wL e_s6.1 wL wL e_s7.1 wL e_s8.1 wL e_s9.1 wL wL
  rw [U256.toZ, Words2.toZ r2]
  exact h

theorem recipSq3_core {r3_w0 r3_w1 r3_w2 p1h p1l p2h p2l p3h p3l p4h p4l p5h p5l p6h p6l s7v s7c s8v s8c s9v s9c s10v s10c s11v s11c s12v s12c s13v s13c s14v s14c s15v s15c s16v s16c s17v s17c s18v s18c s19v s19c : ℤ}
    (l_r3_w0 : 0 ≤ r3_w0)
    (u_r3_w0 : r3_w0 ≤ 18446744073709551615)
    (l_r3_w1 : 0 ≤ r3_w1)
    (u_r3_w1 : r3_w1 ≤ 18446744073709551615)
    (l_r3_w2 : 0 ≤ r3_w2)
    (u_r3_w2 : r3_w2 ≤ 18446744073709551615)
    (e_p1 : p1l + 18446744073709551616 * p1h = r3_w0 * r3_w0)
    (l_p1l : 0 ≤ p1l)
    (e_p2 : p2l + 18446744073709551616 * p2h = r3_w0 * r3_w1)
    (l_p2l : 0 ≤ p2l)
    (e_p3 : p3l + 18446744073709551616 * p3h = r3_w0 * r3_w2)
    (e_p4 : p4l + 18446744073709551616 * p4h = r3_w1 * r3_w1)
    (e_p5 : p5l + 18446744073709551616 * p5h = r3_w1 * r3_w2)
    (e_p6 : p6l + 18446744073709551616 * p6h = r3_w2 * r3_w2)
    (e_s7 : s7v + 18446744073709551616 * s7c = p2h + p3l)
    (l_s7v : 0 ≤ s7v)
    (e_s8 : s8v + 18446744073709551616 * s8c = p5l + p3h + s7c)
    (l_s8v : 0 ≤ s8v)
    (e_s9 : s9v + 18446744073709551616 * s9c = p5h + s8c)
    (l_s9v : 0 ≤ s9v)
    (l_s9c : 0 ≤ s9c)
    (e_s10 : s10v + 18446744073709551616 * s10c = p1h + p2l)
    (l_s10v : 0 ≤ s10v)
    (e_s11 : s11v + 18446744073709551616 * s11c = p4l + s7v + s10c)
    (l_s11v : 0 ≤ s11v)
    (e_s12 : s12v + 18446744073709551616 * s12c = p4h + s8v + s11c)
    (l_s12v : 0 ≤ s12v)
    (e_s13 : s13v + 18446744073709551616 * s13c = p6l + s9v + s12c)
    (l_s13v : 0 ≤ s13v)
    (e_s14 : s14v + 18446744073709551616 * s14c = p6h + s13c)
    (l_s14v : 0 ≤ s14v)
    (l_s14c : 0 ≤ s14c)
    (e_s15 : s15v + 18446744073709551616 * s15c = s10v + p2l)
    (l_s15v : 0 ≤ s15v)
    (e_s16 : s16v + 18446744073709551616 * s16c = s11v + s7v + s15c)
    (l_s16v : 0 ≤ s16v)
    (e_s17 : s17v + 18446744073709551616 * s17c = s12v + s8v + s16c)
    (l_s17v : 0 ≤ s17v)
    (e_s18 : s18v + 18446744073709551616 * s18c = s13v + s9v + s17c)
    (l_s18v : 0 ≤ s18v)
    (e_s19 : s19v + 18446744073709551616 * s19c = s14v + s18c)
    (l_s19v : 0 ≤ s19v)
    (l_s19c : 0 ≤ s19c) :
    p1l + 18446744073709551616 * s15v + 340282366920938463463374607431768211456 * s16v + 6277101735386680763835789423207666416102355444464034512896 * s17v + 115792089237316195423570985008687907853269984665640564039457584007913129639936 * s18v + 2135987035920910082395021706169552114602704522356652769947041607822219725780640550022962086936576 * s19v = (r3_w0 + 18446744073709551616 * r3_w1 + 340282366920938463463374607431768211456 * r3_w2) * (r3_w0 + 18446744073709551616 * r3_w1 + 340282366920938463463374607431768211456 * r3_w2) := by
  have l_r3_w0_r3_w0 : 0 ≤ r3_w0 * r3_w0 := mul_nonneg l_r3_w0 l_r3_w0
  have u_r3_w0_r3_w0 : r3_w0 * r3_w0 ≤ 340282366920938463426481119284349108225 := prod_le l_r3_w0 u_r3_w0 u_r3_w0
  have l_r3_w0_r3_w1 : 0 ≤ r3_w0 * r3_w1 := mul_nonneg l_r3_w0 l_r3_w1
  have u_r3_w0_r3_w1 : r3_w0 * r3_w1 ≤ 340282366920938463426481119284349108225 := prod_le l_r3_w1 u_r3_w0 u_r3_w1
  have l_r3_w0_r3_w2 : 0 ≤ r3_w0 * r3_w2 := mul_nonneg l_r3_w0 l_r3_w2
  have u_r3_w0_r3_w2 : r3_w0 * r3_w2 ≤ 340282366920938463426481119284349108225 := prod_le l_r3_w2 u_r3_w0 u_r3_w2
  have l_r3_w1_r3_w0 : 0 ≤ r3_w1 * r3_w0 := mul_nonneg l_r3_w1 l_r3_w0
  have u_r3_w1_r3_w0 : r3_w1 * r3_w0 ≤ 340282366920938463426481119284349108225 := prod_le l_r3_w0 u_r3_w1 u_r3_w0
  have l_r3_w1_r3_w1 : 0 ≤ r3_w1 * r3_w1 := mul_nonneg l_r3_w1 l_r3_w1
  have u_r3_w1_r3_w1 : r3_w1 * r3_w1 ≤ 340282366920938463426481119284349108225 := prod_le l_r3_w1 u_r3_w1 u_r3_w1
  have l_r3_w1_r3_w2 : 0 ≤ r3_w1 * r3_w2 := mul_nonneg l_r3_w1 l_r3_w2
  have u_r3_w1_r3_w2 : r3_w1 * r3_w2 ≤ 340282366920938463426481119284349108225 := prod_le l_r3_w2 u_r3_w1 u_r3_w2
  have l_r3_w2_r3_w0 : 0 ≤ r3_w2 * r3_w0 := mul_nonneg l_r3_w2 l_r3_w0
  have u_r3_w2_r3_w0 : r3_w2 * r3_w0 ≤ 340282366920938463426481119284349108225 := prod_le l_r3_w0 u_r3_w2 u_r3_w0
  have l_r3_w2_r3_w1 : 0 ≤ r3_w2 * r3_w1 := mul_nonneg l_r3_w2 l_r3_w1
  have u_r3_w2_r3_w1 : r3_w2 * r3_w1 ≤ 340282366920938463426481119284349108225 := prod_le l_r3_w1 u_r3_w2 u_r3_w1
  have l_r3_w2_r3_w2 : 0 ≤ r3_w2 * r3_w2 := mul_nonneg l_r3_w2 l_r3_w2
  have u_r3_w2_r3_w2 : r3_w2 * r3_w2 ≤ 340282366920938463426481119284349108225 := prod_le l_r3_w2 u_r3_w2 u_r3_w2
  have z_s9 : s9c = 0 := by
    have e : 2135987035920910082395021706169552114602704522356652769947041607822219725780640550022962086936576 * s9c + 115792089237316195423570985008687907853269984665640564039457584007913129639936 * s9v + 6277101735386680763835789423207666416102355444464034512896 * s8v + 340282366920938463463374607431768211456 * s7v + 18446744073709551616 * p2l = 6277101735386680763835789423207666416102355444464034512896 * (r3_w1 * r3_w2) + 340282366920938463463374607431768211456 * (r3_w0 * r3_w2) + 18446744073709551616 * (r3_w0 * r3_w1) := by
      linear_combination 115792089237316195423570985008687907853269984665640564039457584007913129639936 * e_s9 + 6277101735386680763835789423207666416102355444464034512896 * e_s8 + 340282366920938463463374607431768211456 * e_s7 + 6277101735386680763835789423207666416102355444464034512896 * e_p5 + 340282366920938463463374607431768211456 * e_p3 + 18446744073709551616 * e_p2
    have : s9c < 1 := by linarith only [e, l_s9c, l_s9v, l_s8v, l_s7v, l_p2l, u_r3_w1_r3_w2, u_r3_w0_r3_w2, u_r3_w0_r3_w1]
    omega
  have z_s14 : s14c = 0 := by
    have e : 39402006196394479212279040100143613805079739270465446667948293404245721771497210611414266254884915640806627990306816 * s14c + 2135987035920910082395021706169552114602704522356652769947041607822219725780640550022962086936576 * s14v + 115792089237316195423570985008687907853269984665640564039457584007913129639936 * s13v + 6277101735386680763835789423207666416102355444464034512896 * s12v + 340282366920938463463374607431768211456 * s11v + 18446744073709551616 * s10v + 1 * p1l = 115792089237316195423570985008687907853269984665640564039457584007913129639936 * (r3_w2 * r3_w2) + 6277101735386680763835789423207666416102355444464034512896 * (r3_w1 * r3_w2) + 340282366920938463463374607431768211456 * (r3_w1 * r3_w1) + 340282366920938463463374607431768211456 * (r3_w0 * r3_w2) + 18446744073709551616 * (r3_w0 * r3_w1) + 1 * (r3_w0 * r3_w0) := by
      linear_combination 2135987035920910082395021706169552114602704522356652769947041607822219725780640550022962086936576 * e_s14 + 115792089237316195423570985008687907853269984665640564039457584007913129639936 * e_s13 + 6277101735386680763835789423207666416102355444464034512896 * e_s12 + 340282366920938463463374607431768211456 * e_s11 + 18446744073709551616 * e_s10 + 115792089237316195423570985008687907853269984665640564039457584007913129639936 * e_s9 + 6277101735386680763835789423207666416102355444464034512896 * e_s8 + 340282366920938463463374607431768211456 * e_s7 + 115792089237316195423570985008687907853269984665640564039457584007913129639936 * e_p6 + 6277101735386680763835789423207666416102355444464034512896 * e_p5 + 340282366920938463463374607431768211456 * e_p4 + 340282366920938463463374607431768211456 * e_p3 + 18446744073709551616 * e_p2 + 1 * e_p1 + -2135987035920910082395021706169552114602704522356652769947041607822219725780640550022962086936576 * z_s9
    have : s14c < 1 := by linarith only [e, l_s14c, l_s14v, l_s13v, l_s12v, l_s11v, l_s10v, l_p1l, u_r3_w2_r3_w2, u_r3_w1_r3_w2, u_r3_w1_r3_w1, u_r3_w0_r3_w2, u_r3_w0_r3_w1, u_r3_w0_r3_w0]
    omega
  have z_s19 : s19c = 0 := by
    have e : 39402006196394479212279040100143613805079739270465446667948293404245721771497210611414266254884915640806627990306816 * s19c + 2135987035920910082395021706169552114602704522356652769947041607822219725780640550022962086936576 * s19v + 115792089237316195423570985008687907853269984665640564039457584007913129639936 * s18v + 6277101735386680763835789423207666416102355444464034512896 * s17v + 340282366920938463463374607431768211456 * s16v + 18446744073709551616 * s15v + 1 * p1l = 115792089237316195423570985008687907853269984665640564039457584007913129639936 * (r3_w2 * r3_w2) + 12554203470773361527671578846415332832204710888928069025792 * (r3_w1 * r3_w2) + 340282366920938463463374607431768211456 * (r3_w1 * r3_w1) + 680564733841876926926749214863536422912 * (r3_w0 * r3_w2) + 36893488147419103232 * (r3_w0 * r3_w1) + 1 * (r3_w0 * r3_w0) := by
      linear_combination 2135987035920910082395021706169552114602704522356652769947041607822219725780640550022962086936576 * e_s19 + 115792089237316195423570985008687907853269984665640564039457584007913129639936 * e_s18 + 6277101735386680763835789423207666416102355444464034512896 * e_s17 + 340282366920938463463374607431768211456 * e_s16 + 18446744073709551616 * e_s15 + 2135987035920910082395021706169552114602704522356652769947041607822219725780640550022962086936576 * e_s14 + 115792089237316195423570985008687907853269984665640564039457584007913129639936 * e_s13 + 6277101735386680763835789423207666416102355444464034512896 * e_s12 + 340282366920938463463374607431768211456 * e_s11 + 18446744073709551616 * e_s10 + 231584178474632390847141970017375815706539969331281128078915168015826259279872 * e_s9 + 12554203470773361527671578846415332832204710888928069025792 * e_s8 + 680564733841876926926749214863536422912 * e_s7 + 115792089237316195423570985008687907853269984665640564039457584007913129639936 * e_p6 + 12554203470773361527671578846415332832204710888928069025792 * e_p5 + 340282366920938463463374607431768211456 * e_p4 + 680564733841876926926749214863536422912 * e_p3 + 36893488147419103232 * e_p2 + 1 * e_p1 + -39402006196394479212279040100143613805079739270465446667948293404245721771497210611414266254884915640806627990306816 * z_s14 + -4271974071841820164790043412339104229205409044713305539894083215644439451561281100045924173873152 * z_s9
    have : s19c < 1 := by linarith only [e, l_s19c, l_s19v, l_s18v, l_s17v, l_s16v, l_s15v, l_p1l, u_r3_w2_r3_w2, u_r3_w1_r3_w2, u_r3_w1_r3_w1, u_r3_w0_r3_w2, u_r3_w0_r3_w1, u_r3_w0_r3_w0]
    omega
  linear_combination 2135987035920910082395021706169552114602704522356652769947041607822219725780640550022962086936576 * e_s19 + 115792089237316195423570985008687907853269984665640564039457584007913129639936 * e_s18 + 6277101735386680763835789423207666416102355444464034512896 * e_s17 + 340282366920938463463374607431768211456 * e_s16 + 18446744073709551616 * e_s15 + 2135987035920910082395021706169552114602704522356652769947041607822219725780640550022962086936576 * e_s14 + 115792089237316195423570985008687907853269984665640564039457584007913129639936 * e_s13 + 6277101735386680763835789423207666416102355444464034512896 * e_s12 + 340282366920938463463374607431768211456 * e_s11 + 18446744073709551616 * e_s10 + 231584178474632390847141970017375815706539969331281128078915168015826259279872 * e_s9 + 12554203470773361527671578846415332832204710888928069025792 * e_s8 + 680564733841876926926749214863536422912 * e_s7 + 115792089237316195423570985008687907853269984665640564039457584007913129639936 * e_p6 + 12554203470773361527671578846415332832204710888928069025792 * e_p5 + 340282366920938463463374607431768211456 * e_p4 + 680564733841876926926749214863536422912 * e_p3 + 36893488147419103232 * e_p2 + 1 * e_p1 + -39402006196394479212279040100143613805079739270465446667948293404245721771497210611414266254884915640806627990306816 * z_s19 + -39402006196394479212279040100143613805079739270465446667948293404245721771497210611414266254884915640806627990306816 * z_s14 + -4271974071841820164790043412339104229205409044713305539894083215644439451561281100045924173873152 * z_s9

theorem recipSq3_spec (r3 : Words3) :
    ((recipSq3 r3).toNat : ℤ) = r3.toNat * r3.toNat := by
  unfold recipSq3
  extract_lets p1 p2 p3 p4 p5 p6 s7 s8 s9 s10 s11 s12 s13 s14 s15 s16 s17 s18 s19
  have e_p1 : (p1.2.toNat : ℤ) + 18446744073709551616 * p1.1.toNat = r3.w0.toNat * r3.w0.toNat := mulZ _ _
  have e_p2 : (p2.2.toNat : ℤ) + 18446744073709551616 * p2.1.toNat = r3.w0.toNat * r3.w1.toNat := mulZ _ _
  have e_p3 : (p3.2.toNat : ℤ) + 18446744073709551616 * p3.1.toNat = r3.w0.toNat * r3.w2.toNat := mulZ _ _
  have e_p4 : (p4.2.toNat : ℤ) + 18446744073709551616 * p4.1.toNat = r3.w1.toNat * r3.w1.toNat := mulZ _ _
  have e_p5 : (p5.2.toNat : ℤ) + 18446744073709551616 * p5.1.toNat = r3.w1.toNat * r3.w2.toNat := mulZ _ _
  have e_p6 : (p6.2.toNat : ℤ) + 18446744073709551616 * p6.1.toNat = r3.w2.toNat * r3.w2.toNat := mulZ _ _
  have e_s7 : (s7.1.toNat : ℤ) + 18446744073709551616 * s7.2.toNat = p2.1.toNat + p3.2.toNat ∧ s7.2.toNat ≤ 1 := addZc _ _
  have e_s8 : (s8.1.toNat : ℤ) + 18446744073709551616 * s8.2.toNat = p5.2.toNat + p3.1.toNat + s7.2.toNat ∧ s8.2.toNat ≤ 1 := addZ _ _ _ e_s7.2
  have e_s9 : (s9.1.toNat : ℤ) + 18446744073709551616 * s9.2.toNat = p5.1.toNat + s8.2.toNat ∧ s9.2.toNat ≤ 1 := addZ0 _ _ e_s8.2
  have e_s10 : (s10.1.toNat : ℤ) + 18446744073709551616 * s10.2.toNat = p1.1.toNat + p2.2.toNat ∧ s10.2.toNat ≤ 1 := addZc _ _
  have e_s11 : (s11.1.toNat : ℤ) + 18446744073709551616 * s11.2.toNat = p4.2.toNat + s7.1.toNat + s10.2.toNat ∧ s11.2.toNat ≤ 1 := addZ _ _ _ e_s10.2
  have e_s12 : (s12.1.toNat : ℤ) + 18446744073709551616 * s12.2.toNat = p4.1.toNat + s8.1.toNat + s11.2.toNat ∧ s12.2.toNat ≤ 1 := addZ _ _ _ e_s11.2
  have e_s13 : (s13.1.toNat : ℤ) + 18446744073709551616 * s13.2.toNat = p6.2.toNat + s9.1.toNat + s12.2.toNat ∧ s13.2.toNat ≤ 1 := addZ _ _ _ e_s12.2
  have e_s14 : (s14.1.toNat : ℤ) + 18446744073709551616 * s14.2.toNat = p6.1.toNat + s13.2.toNat ∧ s14.2.toNat ≤ 1 := addZ0 _ _ e_s13.2
  have e_s15 : (s15.1.toNat : ℤ) + 18446744073709551616 * s15.2.toNat = s10.1.toNat + p2.2.toNat ∧ s15.2.toNat ≤ 1 := addZc _ _
  have e_s16 : (s16.1.toNat : ℤ) + 18446744073709551616 * s16.2.toNat = s11.1.toNat + s7.1.toNat + s15.2.toNat ∧ s16.2.toNat ≤ 1 := addZ _ _ _ e_s15.2
  have e_s17 : (s17.1.toNat : ℤ) + 18446744073709551616 * s17.2.toNat = s12.1.toNat + s8.1.toNat + s16.2.toNat ∧ s17.2.toNat ≤ 1 := addZ _ _ _ e_s16.2
  have e_s18 : (s18.1.toNat : ℤ) + 18446744073709551616 * s18.2.toNat = s13.1.toNat + s9.1.toNat + s17.2.toNat ∧ s18.2.toNat ≤ 1 := addZ _ _ _ e_s17.2
  have e_s19 : (s19.1.toNat : ℤ) + 18446744073709551616 * s19.2.toNat = s14.1.toNat + s18.2.toNat ∧ s19.2.toNat ≤ 1 := addZ0 _ _ e_s18.2
  clear_value p1 p2 p3 p4 p5 p6 s7 s8 s9 s10 s11 s12 s13 s14 s15 s16 s17 s18 s19
  have h := recipSq3_core wL wU wL wU wL wU e_p1 wL e_p2 wL e_p3 e_p4 e_p5 e_p6 e_s7.1 wL e_s8.1 wL e_s9.1 wL wL e_s10.1 wL e_s11.1 wL e_s12.1 wL e_s13.1 wL e_s14.1 wL wL e_s15.1 wL e_s16.1 wL e_s17.1 wL e_s18.1 wL e_s19.1 wL wL
  rw [Words6.toZ, Words3.toZ r3]
  exact h

theorem recipMul4_core {a_w0 a_w1 a_w2 a_w3 a_w4 a_w5 y_w0 y_w1 y_w2 y_w3 p1h p1l p2h p2l p3h p3l s4v s4c s5v s5c s6v s6c p7h p7l s8v s8c s9v s9c p10h p10l s11v s11c s12v s12c p13h p13l s14v s14c s15v s15c p16h p16l s17v s17c s18v s18c s19v s19c p20h p20l s21v s21c s22v s22c p23h p23l s24v s24c s25v s25c p26h p26l s27v s27c s28v s28c p29h p29l s30v s30c s31v s31c p32h p32l s33v s33c s34v s34c s35v s35c p36h p36l s37v s37c s38v s38c p39h p39l s40v s40c s41v s41c p42h p42l s43v s43c s44v s44c p45h p45l s46v s46c s47v s47c p48h p48l s49v s49c s50v s50c p51h p51l s52v s52c s53v s53c s54v s54c : ℤ}
    (l_a_w0 : 0 ≤ a_w0)
    (u_a_w0 : a_w0 ≤ 18446744073709551615)
    (l_a_w1 : 0 ≤ a_w1)
    (u_a_w1 : a_w1 ≤ 18446744073709551615)
    (l_a_w2 : 0 ≤ a_w2)
    (u_a_w2 : a_w2 ≤ 18446744073709551615)
    (l_a_w3 : 0 ≤ a_w3)
    (u_a_w3 : a_w3 ≤ 18446744073709551615)
    (l_a_w4 : 0 ≤ a_w4)
    (u_a_w4 : a_w4 ≤ 18446744073709551615)
    (l_a_w5 : 0 ≤ a_w5)
    (u_a_w5 : a_w5 ≤ 18446744073709551615)
    (l_y_w0 : 0 ≤ y_w0)
    (u_y_w0 : y_w0 ≤ 18446744073709551615)
    (l_y_w1 : 0 ≤ y_w1)
    (u_y_w1 : y_w1 ≤ 18446744073709551615)
    (l_y_w2 : 0 ≤ y_w2)
    (u_y_w2 : y_w2 ≤ 18446744073709551615)
    (l_y_w3 : 0 ≤ y_w3)
    (u_y_w3 : y_w3 ≤ 18446744073709551615)
    (e_p1 : p1l + 18446744073709551616 * p1h = a_w3 * y_w0)
    (l_p1l : 0 ≤ p1l)
    (e_p2 : p2l + 18446744073709551616 * p2h = a_w5 * y_w0)
    (e_p3 : p3l + 18446744073709551616 * p3h = a_w4 * y_w0)
    (e_s4 : s4v + 18446744073709551616 * s4c = p1h + p3l)
    (l_s4v : 0 ≤ s4v)
    (e_s5 : s5v + 18446744073709551616 * s5c = p2l + p3h + s4c)
    (l_s5v : 0 ≤ s5v)
    (e_s6 : s6v + 18446744073709551616 * s6c = p2h + s5c)
    (l_s6v : 0 ≤ s6v)
    (l_s6c : 0 ≤ s6c)
    (e_p7 : p7l + 18446744073709551616 * p7h = a_w3 * y_w1)
    (e_s8 : s8v + 18446744073709551616 * s8c = s4v + p7l)
    (l_s8v : 0 ≤ s8v)
    (e_s9 : s9v + 18446744073709551616 * s9c = s5v + p7h + s8c)
    (l_s9v : 0 ≤ s9v)
    (e_p10 : p10l + 18446744073709551616 * p10h = a_w5 * y_w1)
    (e_s11 : s11v + 18446744073709551616 * s11c = s6v + p10l + s9c)
    (l_s11v : 0 ≤ s11v)
    (e_s12 : s12v + 18446744073709551616 * s12c = p10h + s11c)
    (l_s12v : 0 ≤ s12v)
    (l_s12c : 0 ≤ s12c)
    (e_p13 : p13l + 18446744073709551616 * p13h = a_w2 * y_w1)
    (e_s14 : s14v + 18446744073709551616 * s14c = p1l + p13l)
    (l_s14v : 0 ≤ s14v)
    (e_s15 : s15v + 18446744073709551616 * s15c = s8v + p13h + s14c)
    (l_s15v : 0 ≤ s15v)
    (e_p16 : p16l + 18446744073709551616 * p16h = a_w4 * y_w1)
    (e_s17 : s17v + 18446744073709551616 * s17c = s9v + p16l + s15c)
    (l_s17v : 0 ≤ s17v)
    (e_s18 : s18v + 18446744073709551616 * s18c = s11v + p16h + s17c)
    (l_s18v : 0 ≤ s18v)
    (e_s19 : s19v + 18446744073709551616 * s19c = s12v + s18c)
    (l_s19v : 0 ≤ s19v)
    (l_s19c : 0 ≤ s19c)
    (e_p20 : p20l + 18446744073709551616 * p20h = a_w1 * y_w2)
    (e_s21 : s21v + 18446744073709551616 * s21c = s14v + p20l)
    (l_s21v : 0 ≤ s21v)
    (e_s22 : s22v + 18446744073709551616 * s22c = s15v + p20h + s21c)
    (l_s22v : 0 ≤ s22v)
    (e_p23 : p23l + 18446744073709551616 * p23h = a_w3 * y_w2)
    (e_s24 : s24v + 18446744073709551616 * s24c = s17v + p23l + s22c)
    (l_s24v : 0 ≤ s24v)
    (e_s25 : s25v + 18446744073709551616 * s25c = s18v + p23h + s24c)
    (l_s25v : 0 ≤ s25v)
    (e_p26 : p26l + 18446744073709551616 * p26h = a_w5 * y_w2)
    (e_s27 : s27v + 18446744073709551616 * s27c = s19v + p26l + s25c)
    (l_s27v : 0 ≤ s27v)
    (e_s28 : s28v + 18446744073709551616 * s28c = p26h + s27c)
    (l_s28v : 0 ≤ s28v)
    (l_s28c : 0 ≤ s28c)
    (e_p29 : p29l + 18446744073709551616 * p29h = a_w2 * y_w2)
    (e_s30 : s30v + 18446744073709551616 * s30c = s22v + p29l)
    (l_s30v : 0 ≤ s30v)
    (e_s31 : s31v + 18446744073709551616 * s31c = s24v + p29h + s30c)
    (l_s31v : 0 ≤ s31v)
    (e_p32 : p32l + 18446744073709551616 * p32h = a_w4 * y_w2)
    (e_s33 : s33v + 18446744073709551616 * s33c = s25v + p32l + s31c)
    (l_s33v : 0 ≤ s33v)
    (e_s34 : s34v + 18446744073709551616 * s34c = s27v + p32h + s33c)
    (l_s34v : 0 ≤ s34v)
    (e_s35 : s35v + 18446744073709551616 * s35c = s28v + s34c)
    (l_s35v : 0 ≤ s35v)
    (l_s35c : 0 ≤ s35c)
    (e_p36 : p36l + 18446744073709551616 * p36h = a_w1 * y_w3)
    (e_s37 : s37v + 18446744073709551616 * s37c = s30v + p36l)
    (l_s37v : 0 ≤ s37v)
    (e_s38 : s38v + 18446744073709551616 * s38c = s31v + p36h + s37c)
    (l_s38v : 0 ≤ s38v)
    (e_p39 : p39l + 18446744073709551616 * p39h = a_w3 * y_w3)
    (e_s40 : s40v + 18446744073709551616 * s40c = s33v + p39l + s38c)
    (l_s40v : 0 ≤ s40v)
    (e_s41 : s41v + 18446744073709551616 * s41c = s34v + p39h + s40c)
    (l_s41v : 0 ≤ s41v)
    (e_p42 : p42l + 18446744073709551616 * p42h = a_w5 * y_w3)
    (e_s43 : s43v + 18446744073709551616 * s43c = s35v + p42l + s41c)
    (l_s43v : 0 ≤ s43v)
    (e_s44 : s44v + 18446744073709551616 * s44c = p42h + s43c)
    (l_s44v : 0 ≤ s44v)
    (l_s44c : 0 ≤ s44c)
    (e_p45 : p45l + 18446744073709551616 * p45h = a_w0 * y_w3)
    (e_s46 : s46v + 18446744073709551616 * s46c = s21v + p45l)
    (l_s46v : 0 ≤ s46v)
    (e_s47 : s47v + 18446744073709551616 * s47c = s37v + p45h + s46c)
    (l_s47v : 0 ≤ s47v)
    (e_p48 : p48l + 18446744073709551616 * p48h = a_w2 * y_w3)
    (e_s49 : s49v + 18446744073709551616 * s49c = s38v + p48l + s47c)
    (l_s49v : 0 ≤ s49v)
    (e_s50 : s50v + 18446744073709551616 * s50c = s40v + p48h + s49c)
    (l_s50v : 0 ≤ s50v)
    (e_p51 : p51l + 18446744073709551616 * p51h = a_w4 * y_w3)
    (e_s52 : s52v + 18446744073709551616 * s52c = s41v + p51l + s50c)
    (l_s52v : 0 ≤ s52v)
    (e_s53 : s53v + 18446744073709551616 * s53c = s43v + p51h + s52c)
    (l_s53v : 0 ≤ s53v)
    (e_s54 : s54v + 18446744073709551616 * s54c = s44v + s53c)
    (l_s54v : 0 ≤ s54v)
    (l_s54c : 0 ≤ s54c) :
    6277101735386680763835789423207666416102355444464034512896 * (s46v + 18446744073709551616 * s47v + 340282366920938463463374607431768211456 * s49v + 6277101735386680763835789423207666416102355444464034512896 * s50v + 115792089237316195423570985008687907853269984665640564039457584007913129639936 * s52v + 2135987035920910082395021706169552114602704522356652769947041607822219725780640550022962086936576 * s53v + 39402006196394479212279040100143613805079739270465446667948293404245721771497210611414266254884915640806627990306816 * s54v) ≤ (a_w0 + 18446744073709551616 * a_w1 + 340282366920938463463374607431768211456 * a_w2 + 6277101735386680763835789423207666416102355444464034512896 * a_w3 + 115792089237316195423570985008687907853269984665640564039457584007913129639936 * a_w4 + 2135987035920910082395021706169552114602704522356652769947041607822219725780640550022962086936576 * a_w5) * (y_w0 + 18446744073709551616 * y_w1 + 340282366920938463463374607431768211456 * y_w2 + 6277101735386680763835789423207666416102355444464034512896 * y_w3) ∧ (a_w0 + 18446744073709551616 * a_w1 + 340282366920938463463374607431768211456 * a_w2 + 6277101735386680763835789423207666416102355444464034512896 * a_w3 + 115792089237316195423570985008687907853269984665640564039457584007913129639936 * a_w4 + 2135987035920910082395021706169552114602704522356652769947041607822219725780640550022962086936576 * a_w5) * (y_w0 + 18446744073709551616 * y_w1 + 340282366920938463463374607431768211456 * y_w2 + 6277101735386680763835789423207666416102355444464034512896 * y_w3) < 6277101735386680763835789423207666416102355444464034512896 * (s46v + 18446744073709551616 * s47v + 340282366920938463463374607431768211456 * s49v + 6277101735386680763835789423207666416102355444464034512896 * s50v + 115792089237316195423570985008687907853269984665640564039457584007913129639936 * s52v + 2135987035920910082395021706169552114602704522356652769947041607822219725780640550022962086936576 * s53v + 39402006196394479212279040100143613805079739270465446667948293404245721771497210611414266254884915640806627990306816 * s54v + 73786976294838206464) := by
  have l_a_w0_y_w0 : 0 ≤ a_w0 * y_w0 := mul_nonneg l_a_w0 l_y_w0
  have u_a_w0_y_w0 : a_w0 * y_w0 ≤ 340282366920938463426481119284349108225 := prod_le l_y_w0 u_a_w0 u_y_w0
  have l_a_w0_y_w1 : 0 ≤ a_w0 * y_w1 := mul_nonneg l_a_w0 l_y_w1
  have u_a_w0_y_w1 : a_w0 * y_w1 ≤ 340282366920938463426481119284349108225 := prod_le l_y_w1 u_a_w0 u_y_w1
  have l_a_w0_y_w2 : 0 ≤ a_w0 * y_w2 := mul_nonneg l_a_w0 l_y_w2
  have u_a_w0_y_w2 : a_w0 * y_w2 ≤ 340282366920938463426481119284349108225 := prod_le l_y_w2 u_a_w0 u_y_w2
  have l_a_w0_y_w3 : 0 ≤ a_w0 * y_w3 := mul_nonneg l_a_w0 l_y_w3
  have u_a_w0_y_w3 : a_w0 * y_w3 ≤ 340282366920938463426481119284349108225 := prod_le l_y_w3 u_a_w0 u_y_w3
  have l_a_w1_y_w0 : 0 ≤ a_w1 * y_w0 := mul_nonneg l_a_w1 l_y_w0
  have u_a_w1_y_w0 : a_w1 * y_w0 ≤ 340282366920938463426481119284349108225 := prod_le l_y_w0 u_a_w1 u_y_w0
  have l_a_w1_y_w1 : 0 ≤ a_w1 * y_w1 := mul_nonneg l_a_w1 l_y_w1
  have u_a_w1_y_w1 : a_w1 * y_w1 ≤ 340282366920938463426481119284349108225 := prod_le l_y_w1 u_a_w1 u_y_w1
  have l_a_w1_y_w2 : 0 ≤ a_w1 * y_w2 := mul_nonneg l_a_w1 l_y_w2
  have u_a_w1_y_w2 : a_w1 * y_w2 ≤ 340282366920938463426481119284349108225 := prod_le l_y_w2 u_a_w1 u_y_w2
  have l_a_w1_y_w3 : 0 ≤ a_w1 * y_w3 := mul_nonneg l_a_w1 l_y_w3
  have u_a_w1_y_w3 : a_w1 * y_w3 ≤ 340282366920938463426481119284349108225 := prod_le l_y_w3 u_a_w1 u_y_w3
  have l_a_w2_y_w0 : 0 ≤ a_w2 * y_w0 := mul_nonneg l_a_w2 l_y_w0
  have u_a_w2_y_w0 : a_w2 * y_w0 ≤ 340282366920938463426481119284349108225 := prod_le l_y_w0 u_a_w2 u_y_w0
  have l_a_w2_y_w1 : 0 ≤ a_w2 * y_w1 := mul_nonneg l_a_w2 l_y_w1
  have u_a_w2_y_w1 : a_w2 * y_w1 ≤ 340282366920938463426481119284349108225 := prod_le l_y_w1 u_a_w2 u_y_w1
  have l_a_w2_y_w2 : 0 ≤ a_w2 * y_w2 := mul_nonneg l_a_w2 l_y_w2
  have u_a_w2_y_w2 : a_w2 * y_w2 ≤ 340282366920938463426481119284349108225 := prod_le l_y_w2 u_a_w2 u_y_w2
  have l_a_w2_y_w3 : 0 ≤ a_w2 * y_w3 := mul_nonneg l_a_w2 l_y_w3
  have u_a_w2_y_w3 : a_w2 * y_w3 ≤ 340282366920938463426481119284349108225 := prod_le l_y_w3 u_a_w2 u_y_w3
  have l_a_w3_y_w0 : 0 ≤ a_w3 * y_w0 := mul_nonneg l_a_w3 l_y_w0
  have u_a_w3_y_w0 : a_w3 * y_w0 ≤ 340282366920938463426481119284349108225 := prod_le l_y_w0 u_a_w3 u_y_w0
  have l_a_w3_y_w1 : 0 ≤ a_w3 * y_w1 := mul_nonneg l_a_w3 l_y_w1
  have u_a_w3_y_w1 : a_w3 * y_w1 ≤ 340282366920938463426481119284349108225 := prod_le l_y_w1 u_a_w3 u_y_w1
  have l_a_w3_y_w2 : 0 ≤ a_w3 * y_w2 := mul_nonneg l_a_w3 l_y_w2
  have u_a_w3_y_w2 : a_w3 * y_w2 ≤ 340282366920938463426481119284349108225 := prod_le l_y_w2 u_a_w3 u_y_w2
  have l_a_w3_y_w3 : 0 ≤ a_w3 * y_w3 := mul_nonneg l_a_w3 l_y_w3
  have u_a_w3_y_w3 : a_w3 * y_w3 ≤ 340282366920938463426481119284349108225 := prod_le l_y_w3 u_a_w3 u_y_w3
  have l_a_w4_y_w0 : 0 ≤ a_w4 * y_w0 := mul_nonneg l_a_w4 l_y_w0
  have u_a_w4_y_w0 : a_w4 * y_w0 ≤ 340282366920938463426481119284349108225 := prod_le l_y_w0 u_a_w4 u_y_w0
  have l_a_w4_y_w1 : 0 ≤ a_w4 * y_w1 := mul_nonneg l_a_w4 l_y_w1
  have u_a_w4_y_w1 : a_w4 * y_w1 ≤ 340282366920938463426481119284349108225 := prod_le l_y_w1 u_a_w4 u_y_w1
  have l_a_w4_y_w2 : 0 ≤ a_w4 * y_w2 := mul_nonneg l_a_w4 l_y_w2
  have u_a_w4_y_w2 : a_w4 * y_w2 ≤ 340282366920938463426481119284349108225 := prod_le l_y_w2 u_a_w4 u_y_w2
  have l_a_w4_y_w3 : 0 ≤ a_w4 * y_w3 := mul_nonneg l_a_w4 l_y_w3
  have u_a_w4_y_w3 : a_w4 * y_w3 ≤ 340282366920938463426481119284349108225 := prod_le l_y_w3 u_a_w4 u_y_w3
  have l_a_w5_y_w0 : 0 ≤ a_w5 * y_w0 := mul_nonneg l_a_w5 l_y_w0
  have u_a_w5_y_w0 : a_w5 * y_w0 ≤ 340282366920938463426481119284349108225 := prod_le l_y_w0 u_a_w5 u_y_w0
  have l_a_w5_y_w1 : 0 ≤ a_w5 * y_w1 := mul_nonneg l_a_w5 l_y_w1
  have u_a_w5_y_w1 : a_w5 * y_w1 ≤ 340282366920938463426481119284349108225 := prod_le l_y_w1 u_a_w5 u_y_w1
  have l_a_w5_y_w2 : 0 ≤ a_w5 * y_w2 := mul_nonneg l_a_w5 l_y_w2
  have u_a_w5_y_w2 : a_w5 * y_w2 ≤ 340282366920938463426481119284349108225 := prod_le l_y_w2 u_a_w5 u_y_w2
  have l_a_w5_y_w3 : 0 ≤ a_w5 * y_w3 := mul_nonneg l_a_w5 l_y_w3
  have u_a_w5_y_w3 : a_w5 * y_w3 ≤ 340282366920938463426481119284349108225 := prod_le l_y_w3 u_a_w5 u_y_w3
  have z_s6 : s6c = 0 := by
    have e : 726838724295606890549323807888004534353641360687318060281490199180639288113397923326191050713763565560762521606266177933534601628614656 * s6c + 39402006196394479212279040100143613805079739270465446667948293404245721771497210611414266254884915640806627990306816 * s6v + 2135987035920910082395021706169552114602704522356652769947041607822219725780640550022962086936576 * s5v + 115792089237316195423570985008687907853269984665640564039457584007913129639936 * s4v + 6277101735386680763835789423207666416102355444464034512896 * p1l = 115792089237316195423570985008687907853269984665640564039457584007913129639936 * (a_w4 * y_w0) + 2135987035920910082395021706169552114602704522356652769947041607822219725780640550022962086936576 * (a_w5 * y_w0) + 6277101735386680763835789423207666416102355444464034512896 * (a_w3 * y_w0) := by
      linear_combination 39402006196394479212279040100143613805079739270465446667948293404245721771497210611414266254884915640806627990306816 * e_s6 + 2135987035920910082395021706169552114602704522356652769947041607822219725780640550022962086936576 * e_s5 + 115792089237316195423570985008687907853269984665640564039457584007913129639936 * e_s4 + 115792089237316195423570985008687907853269984665640564039457584007913129639936 * e_p3 + 2135987035920910082395021706169552114602704522356652769947041607822219725780640550022962086936576 * e_p2 + 6277101735386680763835789423207666416102355444464034512896 * e_p1
    have : s6c < 1 := by linarith only [e, l_s6c, l_s6v, l_s5v, l_s4v, l_p1l, u_a_w4_y_w0, u_a_w5_y_w0, u_a_w3_y_w0]
    omega
  have z_s12 : s12c = 0 := by
    have e : 13407807929942597099574024998205846127479365820592393377723561443721764030073546976801874298166903427690031858186486050853753882811946569946433649006084096 * s12c + 726838724295606890549323807888004534353641360687318060281490199180639288113397923326191050713763565560762521606266177933534601628614656 * s12v + 39402006196394479212279040100143613805079739270465446667948293404245721771497210611414266254884915640806627990306816 * s11v + 2135987035920910082395021706169552114602704522356652769947041607822219725780640550022962086936576 * s9v + 115792089237316195423570985008687907853269984665640564039457584007913129639936 * s8v + 6277101735386680763835789423207666416102355444464034512896 * p1l = 39402006196394479212279040100143613805079739270465446667948293404245721771497210611414266254884915640806627990306816 * (a_w5 * y_w1) + 115792089237316195423570985008687907853269984665640564039457584007913129639936 * (a_w3 * y_w1) + 115792089237316195423570985008687907853269984665640564039457584007913129639936 * (a_w4 * y_w0) + 2135987035920910082395021706169552114602704522356652769947041607822219725780640550022962086936576 * (a_w5 * y_w0) + 6277101735386680763835789423207666416102355444464034512896 * (a_w3 * y_w0) := by
      linear_combination 726838724295606890549323807888004534353641360687318060281490199180639288113397923326191050713763565560762521606266177933534601628614656 * e_s12 + 39402006196394479212279040100143613805079739270465446667948293404245721771497210611414266254884915640806627990306816 * e_s11 + 39402006196394479212279040100143613805079739270465446667948293404245721771497210611414266254884915640806627990306816 * e_p10 + 2135987035920910082395021706169552114602704522356652769947041607822219725780640550022962086936576 * e_s9 + 115792089237316195423570985008687907853269984665640564039457584007913129639936 * e_s8 + 115792089237316195423570985008687907853269984665640564039457584007913129639936 * e_p7 + 39402006196394479212279040100143613805079739270465446667948293404245721771497210611414266254884915640806627990306816 * e_s6 + 2135987035920910082395021706169552114602704522356652769947041607822219725780640550022962086936576 * e_s5 + 115792089237316195423570985008687907853269984665640564039457584007913129639936 * e_s4 + 115792089237316195423570985008687907853269984665640564039457584007913129639936 * e_p3 + 2135987035920910082395021706169552114602704522356652769947041607822219725780640550022962086936576 * e_p2 + 6277101735386680763835789423207666416102355444464034512896 * e_p1 + -726838724295606890549323807888004534353641360687318060281490199180639288113397923326191050713763565560762521606266177933534601628614656 * z_s6
    have : s12c < 1 := by linarith only [e, l_s12c, l_s12v, l_s11v, l_s9v, l_s8v, l_p1l, u_a_w5_y_w1, u_a_w3_y_w1, u_a_w4_y_w0, u_a_w5_y_w0, u_a_w3_y_w0]
    omega
  have z_s19 : s19c = 0 := by
    have e : 13407807929942597099574024998205846127479365820592393377723561443721764030073546976801874298166903427690031858186486050853753882811946569946433649006084096 * s19c + 726838724295606890549323807888004534353641360687318060281490199180639288113397923326191050713763565560762521606266177933534601628614656 * s19v + 39402006196394479212279040100143613805079739270465446667948293404245721771497210611414266254884915640806627990306816 * s18v + 2135987035920910082395021706169552114602704522356652769947041607822219725780640550022962086936576 * s17v + 115792089237316195423570985008687907853269984665640564039457584007913129639936 * s15v + 6277101735386680763835789423207666416102355444464034512896 * s14v = 2135987035920910082395021706169552114602704522356652769947041607822219725780640550022962086936576 * (a_w4 * y_w1) + 6277101735386680763835789423207666416102355444464034512896 * (a_w2 * y_w1) + 39402006196394479212279040100143613805079739270465446667948293404245721771497210611414266254884915640806627990306816 * (a_w5 * y_w1) + 115792089237316195423570985008687907853269984665640564039457584007913129639936 * (a_w3 * y_w1) + 115792089237316195423570985008687907853269984665640564039457584007913129639936 * (a_w4 * y_w0) + 2135987035920910082395021706169552114602704522356652769947041607822219725780640550022962086936576 * (a_w5 * y_w0) + 6277101735386680763835789423207666416102355444464034512896 * (a_w3 * y_w0) := by
      linear_combination 726838724295606890549323807888004534353641360687318060281490199180639288113397923326191050713763565560762521606266177933534601628614656 * e_s19 + 39402006196394479212279040100143613805079739270465446667948293404245721771497210611414266254884915640806627990306816 * e_s18 + 2135987035920910082395021706169552114602704522356652769947041607822219725780640550022962086936576 * e_s17 + 2135987035920910082395021706169552114602704522356652769947041607822219725780640550022962086936576 * e_p16 + 115792089237316195423570985008687907853269984665640564039457584007913129639936 * e_s15 + 6277101735386680763835789423207666416102355444464034512896 * e_s14 + 6277101735386680763835789423207666416102355444464034512896 * e_p13 + 726838724295606890549323807888004534353641360687318060281490199180639288113397923326191050713763565560762521606266177933534601628614656 * e_s12 + 39402006196394479212279040100143613805079739270465446667948293404245721771497210611414266254884915640806627990306816 * e_s11 + 39402006196394479212279040100143613805079739270465446667948293404245721771497210611414266254884915640806627990306816 * e_p10 + 2135987035920910082395021706169552114602704522356652769947041607822219725780640550022962086936576 * e_s9 + 115792089237316195423570985008687907853269984665640564039457584007913129639936 * e_s8 + 115792089237316195423570985008687907853269984665640564039457584007913129639936 * e_p7 + 39402006196394479212279040100143613805079739270465446667948293404245721771497210611414266254884915640806627990306816 * e_s6 + 2135987035920910082395021706169552114602704522356652769947041607822219725780640550022962086936576 * e_s5 + 115792089237316195423570985008687907853269984665640564039457584007913129639936 * e_s4 + 115792089237316195423570985008687907853269984665640564039457584007913129639936 * e_p3 + 2135987035920910082395021706169552114602704522356652769947041607822219725780640550022962086936576 * e_p2 + 6277101735386680763835789423207666416102355444464034512896 * e_p1 + -13407807929942597099574024998205846127479365820592393377723561443721764030073546976801874298166903427690031858186486050853753882811946569946433649006084096 * z_s12 + -726838724295606890549323807888004534353641360687318060281490199180639288113397923326191050713763565560762521606266177933534601628614656 * z_s6
    have : s19c < 1 := by linarith only [e, l_s19c, l_s19v, l_s18v, l_s17v, l_s15v, l_s14v, u_a_w4_y_w1, u_a_w2_y_w1, u_a_w5_y_w1, u_a_w3_y_w1, u_a_w4_y_w0, u_a_w5_y_w0, u_a_w3_y_w0]
    omega
  have z_s28 : s28c = 0 := by
    have e : 247330401473104534060502521019647190035131349101211839914063056092897225106531867170316401061243044989597671426016139339351365034306751209967546155101893167916606772148699136 * s28c + 13407807929942597099574024998205846127479365820592393377723561443721764030073546976801874298166903427690031858186486050853753882811946569946433649006084096 * s28v + 726838724295606890549323807888004534353641360687318060281490199180639288113397923326191050713763565560762521606266177933534601628614656 * s27v + 39402006196394479212279040100143613805079739270465446667948293404245721771497210611414266254884915640806627990306816 * s25v + 2135987035920910082395021706169552114602704522356652769947041607822219725780640550022962086936576 * s24v + 115792089237316195423570985008687907853269984665640564039457584007913129639936 * s22v + 6277101735386680763835789423207666416102355444464034512896 * s21v = 726838724295606890549323807888004534353641360687318060281490199180639288113397923326191050713763565560762521606266177933534601628614656 * (a_w5 * y_w2) + 2135987035920910082395021706169552114602704522356652769947041607822219725780640550022962086936576 * (a_w3 * y_w2) + 6277101735386680763835789423207666416102355444464034512896 * (a_w1 * y_w2) + 2135987035920910082395021706169552114602704522356652769947041607822219725780640550022962086936576 * (a_w4 * y_w1) + 6277101735386680763835789423207666416102355444464034512896 * (a_w2 * y_w1) + 39402006196394479212279040100143613805079739270465446667948293404245721771497210611414266254884915640806627990306816 * (a_w5 * y_w1) + 115792089237316195423570985008687907853269984665640564039457584007913129639936 * (a_w3 * y_w1) + 115792089237316195423570985008687907853269984665640564039457584007913129639936 * (a_w4 * y_w0) + 2135987035920910082395021706169552114602704522356652769947041607822219725780640550022962086936576 * (a_w5 * y_w0) + 6277101735386680763835789423207666416102355444464034512896 * (a_w3 * y_w0) := by
      linear_combination 13407807929942597099574024998205846127479365820592393377723561443721764030073546976801874298166903427690031858186486050853753882811946569946433649006084096 * e_s28 + 726838724295606890549323807888004534353641360687318060281490199180639288113397923326191050713763565560762521606266177933534601628614656 * e_s27 + 726838724295606890549323807888004534353641360687318060281490199180639288113397923326191050713763565560762521606266177933534601628614656 * e_p26 + 39402006196394479212279040100143613805079739270465446667948293404245721771497210611414266254884915640806627990306816 * e_s25 + 2135987035920910082395021706169552114602704522356652769947041607822219725780640550022962086936576 * e_s24 + 2135987035920910082395021706169552114602704522356652769947041607822219725780640550022962086936576 * e_p23 + 115792089237316195423570985008687907853269984665640564039457584007913129639936 * e_s22 + 6277101735386680763835789423207666416102355444464034512896 * e_s21 + 6277101735386680763835789423207666416102355444464034512896 * e_p20 + 726838724295606890549323807888004534353641360687318060281490199180639288113397923326191050713763565560762521606266177933534601628614656 * e_s19 + 39402006196394479212279040100143613805079739270465446667948293404245721771497210611414266254884915640806627990306816 * e_s18 + 2135987035920910082395021706169552114602704522356652769947041607822219725780640550022962086936576 * e_s17 + 2135987035920910082395021706169552114602704522356652769947041607822219725780640550022962086936576 * e_p16 + 115792089237316195423570985008687907853269984665640564039457584007913129639936 * e_s15 + 6277101735386680763835789423207666416102355444464034512896 * e_s14 + 6277101735386680763835789423207666416102355444464034512896 * e_p13 + 726838724295606890549323807888004534353641360687318060281490199180639288113397923326191050713763565560762521606266177933534601628614656 * e_s12 + 39402006196394479212279040100143613805079739270465446667948293404245721771497210611414266254884915640806627990306816 * e_s11 + 39402006196394479212279040100143613805079739270465446667948293404245721771497210611414266254884915640806627990306816 * e_p10 + 2135987035920910082395021706169552114602704522356652769947041607822219725780640550022962086936576 * e_s9 + 115792089237316195423570985008687907853269984665640564039457584007913129639936 * e_s8 + 115792089237316195423570985008687907853269984665640564039457584007913129639936 * e_p7 + 39402006196394479212279040100143613805079739270465446667948293404245721771497210611414266254884915640806627990306816 * e_s6 + 2135987035920910082395021706169552114602704522356652769947041607822219725780640550022962086936576 * e_s5 + 115792089237316195423570985008687907853269984665640564039457584007913129639936 * e_s4 + 115792089237316195423570985008687907853269984665640564039457584007913129639936 * e_p3 + 2135987035920910082395021706169552114602704522356652769947041607822219725780640550022962086936576 * e_p2 + 6277101735386680763835789423207666416102355444464034512896 * e_p1 + -13407807929942597099574024998205846127479365820592393377723561443721764030073546976801874298166903427690031858186486050853753882811946569946433649006084096 * z_s19 + -13407807929942597099574024998205846127479365820592393377723561443721764030073546976801874298166903427690031858186486050853753882811946569946433649006084096 * z_s12 + -726838724295606890549323807888004534353641360687318060281490199180639288113397923326191050713763565560762521606266177933534601628614656 * z_s6
    have : s28c < 1 := by linarith only [e, l_s28c, l_s28v, l_s27v, l_s25v, l_s24v, l_s22v, l_s21v, u_a_w5_y_w2, u_a_w3_y_w2, u_a_w1_y_w2, u_a_w4_y_w1, u_a_w2_y_w1, u_a_w5_y_w1, u_a_w3_y_w1, u_a_w4_y_w0, u_a_w5_y_w0, u_a_w3_y_w0]
    omega
  have z_s35 : s35c = 0 := by
    have e : 247330401473104534060502521019647190035131349101211839914063056092897225106531867170316401061243044989597671426016139339351365034306751209967546155101893167916606772148699136 * s35c + 13407807929942597099574024998205846127479365820592393377723561443721764030073546976801874298166903427690031858186486050853753882811946569946433649006084096 * s35v + 726838724295606890549323807888004534353641360687318060281490199180639288113397923326191050713763565560762521606266177933534601628614656 * s34v + 39402006196394479212279040100143613805079739270465446667948293404245721771497210611414266254884915640806627990306816 * s33v + 2135987035920910082395021706169552114602704522356652769947041607822219725780640550022962086936576 * s31v + 115792089237316195423570985008687907853269984665640564039457584007913129639936 * s30v + 6277101735386680763835789423207666416102355444464034512896 * s21v = 39402006196394479212279040100143613805079739270465446667948293404245721771497210611414266254884915640806627990306816 * (a_w4 * y_w2) + 115792089237316195423570985008687907853269984665640564039457584007913129639936 * (a_w2 * y_w2) + 726838724295606890549323807888004534353641360687318060281490199180639288113397923326191050713763565560762521606266177933534601628614656 * (a_w5 * y_w2) + 2135987035920910082395021706169552114602704522356652769947041607822219725780640550022962086936576 * (a_w3 * y_w2) + 6277101735386680763835789423207666416102355444464034512896 * (a_w1 * y_w2) + 2135987035920910082395021706169552114602704522356652769947041607822219725780640550022962086936576 * (a_w4 * y_w1) + 6277101735386680763835789423207666416102355444464034512896 * (a_w2 * y_w1) + 39402006196394479212279040100143613805079739270465446667948293404245721771497210611414266254884915640806627990306816 * (a_w5 * y_w1) + 115792089237316195423570985008687907853269984665640564039457584007913129639936 * (a_w3 * y_w1) + 115792089237316195423570985008687907853269984665640564039457584007913129639936 * (a_w4 * y_w0) + 2135987035920910082395021706169552114602704522356652769947041607822219725780640550022962086936576 * (a_w5 * y_w0) + 6277101735386680763835789423207666416102355444464034512896 * (a_w3 * y_w0) := by
      linear_combination 13407807929942597099574024998205846127479365820592393377723561443721764030073546976801874298166903427690031858186486050853753882811946569946433649006084096 * e_s35 + 726838724295606890549323807888004534353641360687318060281490199180639288113397923326191050713763565560762521606266177933534601628614656 * e_s34 + 39402006196394479212279040100143613805079739270465446667948293404245721771497210611414266254884915640806627990306816 * e_s33 + 39402006196394479212279040100143613805079739270465446667948293404245721771497210611414266254884915640806627990306816 * e_p32 + 2135987035920910082395021706169552114602704522356652769947041607822219725780640550022962086936576 * e_s31 + 115792089237316195423570985008687907853269984665640564039457584007913129639936 * e_s30 + 115792089237316195423570985008687907853269984665640564039457584007913129639936 * e_p29 + 13407807929942597099574024998205846127479365820592393377723561443721764030073546976801874298166903427690031858186486050853753882811946569946433649006084096 * e_s28 + 726838724295606890549323807888004534353641360687318060281490199180639288113397923326191050713763565560762521606266177933534601628614656 * e_s27 + 726838724295606890549323807888004534353641360687318060281490199180639288113397923326191050713763565560762521606266177933534601628614656 * e_p26 + 39402006196394479212279040100143613805079739270465446667948293404245721771497210611414266254884915640806627990306816 * e_s25 + 2135987035920910082395021706169552114602704522356652769947041607822219725780640550022962086936576 * e_s24 + 2135987035920910082395021706169552114602704522356652769947041607822219725780640550022962086936576 * e_p23 + 115792089237316195423570985008687907853269984665640564039457584007913129639936 * e_s22 + 6277101735386680763835789423207666416102355444464034512896 * e_s21 + 6277101735386680763835789423207666416102355444464034512896 * e_p20 + 726838724295606890549323807888004534353641360687318060281490199180639288113397923326191050713763565560762521606266177933534601628614656 * e_s19 + 39402006196394479212279040100143613805079739270465446667948293404245721771497210611414266254884915640806627990306816 * e_s18 + 2135987035920910082395021706169552114602704522356652769947041607822219725780640550022962086936576 * e_s17 + 2135987035920910082395021706169552114602704522356652769947041607822219725780640550022962086936576 * e_p16 + 115792089237316195423570985008687907853269984665640564039457584007913129639936 * e_s15 + 6277101735386680763835789423207666416102355444464034512896 * e_s14 + 6277101735386680763835789423207666416102355444464034512896 * e_p13 + 726838724295606890549323807888004534353641360687318060281490199180639288113397923326191050713763565560762521606266177933534601628614656 * e_s12 + 39402006196394479212279040100143613805079739270465446667948293404245721771497210611414266254884915640806627990306816 * e_s11 + 39402006196394479212279040100143613805079739270465446667948293404245721771497210611414266254884915640806627990306816 * e_p10 + 2135987035920910082395021706169552114602704522356652769947041607822219725780640550022962086936576 * e_s9 + 115792089237316195423570985008687907853269984665640564039457584007913129639936 * e_s8 + 115792089237316195423570985008687907853269984665640564039457584007913129639936 * e_p7 + 39402006196394479212279040100143613805079739270465446667948293404245721771497210611414266254884915640806627990306816 * e_s6 + 2135987035920910082395021706169552114602704522356652769947041607822219725780640550022962086936576 * e_s5 + 115792089237316195423570985008687907853269984665640564039457584007913129639936 * e_s4 + 115792089237316195423570985008687907853269984665640564039457584007913129639936 * e_p3 + 2135987035920910082395021706169552114602704522356652769947041607822219725780640550022962086936576 * e_p2 + 6277101735386680763835789423207666416102355444464034512896 * e_p1 + -247330401473104534060502521019647190035131349101211839914063056092897225106531867170316401061243044989597671426016139339351365034306751209967546155101893167916606772148699136 * z_s28 + -13407807929942597099574024998205846127479365820592393377723561443721764030073546976801874298166903427690031858186486050853753882811946569946433649006084096 * z_s19 + -13407807929942597099574024998205846127479365820592393377723561443721764030073546976801874298166903427690031858186486050853753882811946569946433649006084096 * z_s12 + -726838724295606890549323807888004534353641360687318060281490199180639288113397923326191050713763565560762521606266177933534601628614656 * z_s6
    have : s35c < 1 := by linarith only [e, l_s35c, l_s35v, l_s34v, l_s33v, l_s31v, l_s30v, l_s21v, u_a_w4_y_w2, u_a_w2_y_w2, u_a_w5_y_w2, u_a_w3_y_w2, u_a_w1_y_w2, u_a_w4_y_w1, u_a_w2_y_w1, u_a_w5_y_w1, u_a_w3_y_w1, u_a_w4_y_w0, u_a_w5_y_w0, u_a_w3_y_w0]
    omega
  have z_s44 : s44c = 0 := by
    have e : 4562440617622195218641171605700291324893228507248559930579192517899275167208677386505912811317371399778642309573594407310688704721375437998252661319722214188251994674360264950082874192246603776 * s44c + 247330401473104534060502521019647190035131349101211839914063056092897225106531867170316401061243044989597671426016139339351365034306751209967546155101893167916606772148699136 * s44v + 13407807929942597099574024998205846127479365820592393377723561443721764030073546976801874298166903427690031858186486050853753882811946569946433649006084096 * s43v + 726838724295606890549323807888004534353641360687318060281490199180639288113397923326191050713763565560762521606266177933534601628614656 * s41v + 39402006196394479212279040100143613805079739270465446667948293404245721771497210611414266254884915640806627990306816 * s40v + 2135987035920910082395021706169552114602704522356652769947041607822219725780640550022962086936576 * s38v + 115792089237316195423570985008687907853269984665640564039457584007913129639936 * s37v + 6277101735386680763835789423207666416102355444464034512896 * s21v = 13407807929942597099574024998205846127479365820592393377723561443721764030073546976801874298166903427690031858186486050853753882811946569946433649006084096 * (a_w5 * y_w3) + 39402006196394479212279040100143613805079739270465446667948293404245721771497210611414266254884915640806627990306816 * (a_w3 * y_w3) + 115792089237316195423570985008687907853269984665640564039457584007913129639936 * (a_w1 * y_w3) + 39402006196394479212279040100143613805079739270465446667948293404245721771497210611414266254884915640806627990306816 * (a_w4 * y_w2) + 115792089237316195423570985008687907853269984665640564039457584007913129639936 * (a_w2 * y_w2) + 726838724295606890549323807888004534353641360687318060281490199180639288113397923326191050713763565560762521606266177933534601628614656 * (a_w5 * y_w2) + 2135987035920910082395021706169552114602704522356652769947041607822219725780640550022962086936576 * (a_w3 * y_w2) + 6277101735386680763835789423207666416102355444464034512896 * (a_w1 * y_w2) + 2135987035920910082395021706169552114602704522356652769947041607822219725780640550022962086936576 * (a_w4 * y_w1) + 6277101735386680763835789423207666416102355444464034512896 * (a_w2 * y_w1) + 39402006196394479212279040100143613805079739270465446667948293404245721771497210611414266254884915640806627990306816 * (a_w5 * y_w1) + 115792089237316195423570985008687907853269984665640564039457584007913129639936 * (a_w3 * y_w1) + 115792089237316195423570985008687907853269984665640564039457584007913129639936 * (a_w4 * y_w0) + 2135987035920910082395021706169552114602704522356652769947041607822219725780640550022962086936576 * (a_w5 * y_w0) + 6277101735386680763835789423207666416102355444464034512896 * (a_w3 * y_w0) := by
      linear_combination 247330401473104534060502521019647190035131349101211839914063056092897225106531867170316401061243044989597671426016139339351365034306751209967546155101893167916606772148699136 * e_s44 + 13407807929942597099574024998205846127479365820592393377723561443721764030073546976801874298166903427690031858186486050853753882811946569946433649006084096 * e_s43 + 13407807929942597099574024998205846127479365820592393377723561443721764030073546976801874298166903427690031858186486050853753882811946569946433649006084096 * e_p42 + 726838724295606890549323807888004534353641360687318060281490199180639288113397923326191050713763565560762521606266177933534601628614656 * e_s41 + 39402006196394479212279040100143613805079739270465446667948293404245721771497210611414266254884915640806627990306816 * e_s40 + 39402006196394479212279040100143613805079739270465446667948293404245721771497210611414266254884915640806627990306816 * e_p39 + 2135987035920910082395021706169552114602704522356652769947041607822219725780640550022962086936576 * e_s38 + 115792089237316195423570985008687907853269984665640564039457584007913129639936 * e_s37 + 115792089237316195423570985008687907853269984665640564039457584007913129639936 * e_p36 + 13407807929942597099574024998205846127479365820592393377723561443721764030073546976801874298166903427690031858186486050853753882811946569946433649006084096 * e_s35 + 726838724295606890549323807888004534353641360687318060281490199180639288113397923326191050713763565560762521606266177933534601628614656 * e_s34 + 39402006196394479212279040100143613805079739270465446667948293404245721771497210611414266254884915640806627990306816 * e_s33 + 39402006196394479212279040100143613805079739270465446667948293404245721771497210611414266254884915640806627990306816 * e_p32 + 2135987035920910082395021706169552114602704522356652769947041607822219725780640550022962086936576 * e_s31 + 115792089237316195423570985008687907853269984665640564039457584007913129639936 * e_s30 + 115792089237316195423570985008687907853269984665640564039457584007913129639936 * e_p29 + 13407807929942597099574024998205846127479365820592393377723561443721764030073546976801874298166903427690031858186486050853753882811946569946433649006084096 * e_s28 + 726838724295606890549323807888004534353641360687318060281490199180639288113397923326191050713763565560762521606266177933534601628614656 * e_s27 + 726838724295606890549323807888004534353641360687318060281490199180639288113397923326191050713763565560762521606266177933534601628614656 * e_p26 + 39402006196394479212279040100143613805079739270465446667948293404245721771497210611414266254884915640806627990306816 * e_s25 + 2135987035920910082395021706169552114602704522356652769947041607822219725780640550022962086936576 * e_s24 + 2135987035920910082395021706169552114602704522356652769947041607822219725780640550022962086936576 * e_p23 + 115792089237316195423570985008687907853269984665640564039457584007913129639936 * e_s22 + 6277101735386680763835789423207666416102355444464034512896 * e_s21 + 6277101735386680763835789423207666416102355444464034512896 * e_p20 + 726838724295606890549323807888004534353641360687318060281490199180639288113397923326191050713763565560762521606266177933534601628614656 * e_s19 + 39402006196394479212279040100143613805079739270465446667948293404245721771497210611414266254884915640806627990306816 * e_s18 + 2135987035920910082395021706169552114602704522356652769947041607822219725780640550022962086936576 * e_s17 + 2135987035920910082395021706169552114602704522356652769947041607822219725780640550022962086936576 * e_p16 + 115792089237316195423570985008687907853269984665640564039457584007913129639936 * e_s15 + 6277101735386680763835789423207666416102355444464034512896 * e_s14 + 6277101735386680763835789423207666416102355444464034512896 * e_p13 + 726838724295606890549323807888004534353641360687318060281490199180639288113397923326191050713763565560762521606266177933534601628614656 * e_s12 + 39402006196394479212279040100143613805079739270465446667948293404245721771497210611414266254884915640806627990306816 * e_s11 + 39402006196394479212279040100143613805079739270465446667948293404245721771497210611414266254884915640806627990306816 * e_p10 + 2135987035920910082395021706169552114602704522356652769947041607822219725780640550022962086936576 * e_s9 + 115792089237316195423570985008687907853269984665640564039457584007913129639936 * e_s8 + 115792089237316195423570985008687907853269984665640564039457584007913129639936 * e_p7 + 39402006196394479212279040100143613805079739270465446667948293404245721771497210611414266254884915640806627990306816 * e_s6 + 2135987035920910082395021706169552114602704522356652769947041607822219725780640550022962086936576 * e_s5 + 115792089237316195423570985008687907853269984665640564039457584007913129639936 * e_s4 + 115792089237316195423570985008687907853269984665640564039457584007913129639936 * e_p3 + 2135987035920910082395021706169552114602704522356652769947041607822219725780640550022962086936576 * e_p2 + 6277101735386680763835789423207666416102355444464034512896 * e_p1 + -247330401473104534060502521019647190035131349101211839914063056092897225106531867170316401061243044989597671426016139339351365034306751209967546155101893167916606772148699136 * z_s35 + -247330401473104534060502521019647190035131349101211839914063056092897225106531867170316401061243044989597671426016139339351365034306751209967546155101893167916606772148699136 * z_s28 + -13407807929942597099574024998205846127479365820592393377723561443721764030073546976801874298166903427690031858186486050853753882811946569946433649006084096 * z_s19 + -13407807929942597099574024998205846127479365820592393377723561443721764030073546976801874298166903427690031858186486050853753882811946569946433649006084096 * z_s12 + -726838724295606890549323807888004534353641360687318060281490199180639288113397923326191050713763565560762521606266177933534601628614656 * z_s6
    have : s44c < 1 := by linarith only [e, l_s44c, l_s44v, l_s43v, l_s41v, l_s40v, l_s38v, l_s37v, l_s21v, u_a_w5_y_w3, u_a_w3_y_w3, u_a_w1_y_w3, u_a_w4_y_w2, u_a_w2_y_w2, u_a_w5_y_w2, u_a_w3_y_w2, u_a_w1_y_w2, u_a_w4_y_w1, u_a_w2_y_w1, u_a_w5_y_w1, u_a_w3_y_w1, u_a_w4_y_w0, u_a_w5_y_w0, u_a_w3_y_w0]
    omega
  have z_s54 : s54c = 0 := by
    have e : 4562440617622195218641171605700291324893228507248559930579192517899275167208677386505912811317371399778642309573594407310688704721375437998252661319722214188251994674360264950082874192246603776 * s54c + 247330401473104534060502521019647190035131349101211839914063056092897225106531867170316401061243044989597671426016139339351365034306751209967546155101893167916606772148699136 * s54v + 13407807929942597099574024998205846127479365820592393377723561443721764030073546976801874298166903427690031858186486050853753882811946569946433649006084096 * s53v + 726838724295606890549323807888004534353641360687318060281490199180639288113397923326191050713763565560762521606266177933534601628614656 * s52v + 39402006196394479212279040100143613805079739270465446667948293404245721771497210611414266254884915640806627990306816 * s50v + 2135987035920910082395021706169552114602704522356652769947041607822219725780640550022962086936576 * s49v + 115792089237316195423570985008687907853269984665640564039457584007913129639936 * s47v + 6277101735386680763835789423207666416102355444464034512896 * s46v = 726838724295606890549323807888004534353641360687318060281490199180639288113397923326191050713763565560762521606266177933534601628614656 * (a_w4 * y_w3) + 2135987035920910082395021706169552114602704522356652769947041607822219725780640550022962086936576 * (a_w2 * y_w3) + 6277101735386680763835789423207666416102355444464034512896 * (a_w0 * y_w3) + 13407807929942597099574024998205846127479365820592393377723561443721764030073546976801874298166903427690031858186486050853753882811946569946433649006084096 * (a_w5 * y_w3) + 39402006196394479212279040100143613805079739270465446667948293404245721771497210611414266254884915640806627990306816 * (a_w3 * y_w3) + 115792089237316195423570985008687907853269984665640564039457584007913129639936 * (a_w1 * y_w3) + 39402006196394479212279040100143613805079739270465446667948293404245721771497210611414266254884915640806627990306816 * (a_w4 * y_w2) + 115792089237316195423570985008687907853269984665640564039457584007913129639936 * (a_w2 * y_w2) + 726838724295606890549323807888004534353641360687318060281490199180639288113397923326191050713763565560762521606266177933534601628614656 * (a_w5 * y_w2) + 2135987035920910082395021706169552114602704522356652769947041607822219725780640550022962086936576 * (a_w3 * y_w2) + 6277101735386680763835789423207666416102355444464034512896 * (a_w1 * y_w2) + 2135987035920910082395021706169552114602704522356652769947041607822219725780640550022962086936576 * (a_w4 * y_w1) + 6277101735386680763835789423207666416102355444464034512896 * (a_w2 * y_w1) + 39402006196394479212279040100143613805079739270465446667948293404245721771497210611414266254884915640806627990306816 * (a_w5 * y_w1) + 115792089237316195423570985008687907853269984665640564039457584007913129639936 * (a_w3 * y_w1) + 115792089237316195423570985008687907853269984665640564039457584007913129639936 * (a_w4 * y_w0) + 2135987035920910082395021706169552114602704522356652769947041607822219725780640550022962086936576 * (a_w5 * y_w0) + 6277101735386680763835789423207666416102355444464034512896 * (a_w3 * y_w0) := by
      linear_combination 247330401473104534060502521019647190035131349101211839914063056092897225106531867170316401061243044989597671426016139339351365034306751209967546155101893167916606772148699136 * e_s54 + 13407807929942597099574024998205846127479365820592393377723561443721764030073546976801874298166903427690031858186486050853753882811946569946433649006084096 * e_s53 + 726838724295606890549323807888004534353641360687318060281490199180639288113397923326191050713763565560762521606266177933534601628614656 * e_s52 + 726838724295606890549323807888004534353641360687318060281490199180639288113397923326191050713763565560762521606266177933534601628614656 * e_p51 + 39402006196394479212279040100143613805079739270465446667948293404245721771497210611414266254884915640806627990306816 * e_s50 + 2135987035920910082395021706169552114602704522356652769947041607822219725780640550022962086936576 * e_s49 + 2135987035920910082395021706169552114602704522356652769947041607822219725780640550022962086936576 * e_p48 + 115792089237316195423570985008687907853269984665640564039457584007913129639936 * e_s47 + 6277101735386680763835789423207666416102355444464034512896 * e_s46 + 6277101735386680763835789423207666416102355444464034512896 * e_p45 + 247330401473104534060502521019647190035131349101211839914063056092897225106531867170316401061243044989597671426016139339351365034306751209967546155101893167916606772148699136 * e_s44 + 13407807929942597099574024998205846127479365820592393377723561443721764030073546976801874298166903427690031858186486050853753882811946569946433649006084096 * e_s43 + 13407807929942597099574024998205846127479365820592393377723561443721764030073546976801874298166903427690031858186486050853753882811946569946433649006084096 * e_p42 + 726838724295606890549323807888004534353641360687318060281490199180639288113397923326191050713763565560762521606266177933534601628614656 * e_s41 + 39402006196394479212279040100143613805079739270465446667948293404245721771497210611414266254884915640806627990306816 * e_s40 + 39402006196394479212279040100143613805079739270465446667948293404245721771497210611414266254884915640806627990306816 * e_p39 + 2135987035920910082395021706169552114602704522356652769947041607822219725780640550022962086936576 * e_s38 + 115792089237316195423570985008687907853269984665640564039457584007913129639936 * e_s37 + 115792089237316195423570985008687907853269984665640564039457584007913129639936 * e_p36 + 13407807929942597099574024998205846127479365820592393377723561443721764030073546976801874298166903427690031858186486050853753882811946569946433649006084096 * e_s35 + 726838724295606890549323807888004534353641360687318060281490199180639288113397923326191050713763565560762521606266177933534601628614656 * e_s34 + 39402006196394479212279040100143613805079739270465446667948293404245721771497210611414266254884915640806627990306816 * e_s33 + 39402006196394479212279040100143613805079739270465446667948293404245721771497210611414266254884915640806627990306816 * e_p32 + 2135987035920910082395021706169552114602704522356652769947041607822219725780640550022962086936576 * e_s31 + 115792089237316195423570985008687907853269984665640564039457584007913129639936 * e_s30 + 115792089237316195423570985008687907853269984665640564039457584007913129639936 * e_p29 + 13407807929942597099574024998205846127479365820592393377723561443721764030073546976801874298166903427690031858186486050853753882811946569946433649006084096 * e_s28 + 726838724295606890549323807888004534353641360687318060281490199180639288113397923326191050713763565560762521606266177933534601628614656 * e_s27 + 726838724295606890549323807888004534353641360687318060281490199180639288113397923326191050713763565560762521606266177933534601628614656 * e_p26 + 39402006196394479212279040100143613805079739270465446667948293404245721771497210611414266254884915640806627990306816 * e_s25 + 2135987035920910082395021706169552114602704522356652769947041607822219725780640550022962086936576 * e_s24 + 2135987035920910082395021706169552114602704522356652769947041607822219725780640550022962086936576 * e_p23 + 115792089237316195423570985008687907853269984665640564039457584007913129639936 * e_s22 + 6277101735386680763835789423207666416102355444464034512896 * e_s21 + 6277101735386680763835789423207666416102355444464034512896 * e_p20 + 726838724295606890549323807888004534353641360687318060281490199180639288113397923326191050713763565560762521606266177933534601628614656 * e_s19 + 39402006196394479212279040100143613805079739270465446667948293404245721771497210611414266254884915640806627990306816 * e_s18 + 2135987035920910082395021706169552114602704522356652769947041607822219725780640550022962086936576 * e_s17 + 2135987035920910082395021706169552114602704522356652769947041607822219725780640550022962086936576 * e_p16 + 115792089237316195423570985008687907853269984665640564039457584007913129639936 * e_s15 + 6277101735386680763835789423207666416102355444464034512896 * e_s14 + 6277101735386680763835789423207666416102355444464034512896 * e_p13 + 726838724295606890549323807888004534353641360687318060281490199180639288113397923326191050713763565560762521606266177933534601628614656 * e_s12 + 39402006196394479212279040100143613805079739270465446667948293404245721771497210611414266254884915640806627990306816 * e_s11 + 39402006196394479212279040100143613805079739270465446667948293404245721771497210611414266254884915640806627990306816 * e_p10 + 2135987035920910082395021706169552114602704522356652769947041607822219725780640550022962086936576 * e_s9 + 115792089237316195423570985008687907853269984665640564039457584007913129639936 * e_s8 + 115792089237316195423570985008687907853269984665640564039457584007913129639936 * e_p7 + 39402006196394479212279040100143613805079739270465446667948293404245721771497210611414266254884915640806627990306816 * e_s6 + 2135987035920910082395021706169552114602704522356652769947041607822219725780640550022962086936576 * e_s5 + 115792089237316195423570985008687907853269984665640564039457584007913129639936 * e_s4 + 115792089237316195423570985008687907853269984665640564039457584007913129639936 * e_p3 + 2135987035920910082395021706169552114602704522356652769947041607822219725780640550022962086936576 * e_p2 + 6277101735386680763835789423207666416102355444464034512896 * e_p1 + -4562440617622195218641171605700291324893228507248559930579192517899275167208677386505912811317371399778642309573594407310688704721375437998252661319722214188251994674360264950082874192246603776 * z_s44 + -247330401473104534060502521019647190035131349101211839914063056092897225106531867170316401061243044989597671426016139339351365034306751209967546155101893167916606772148699136 * z_s35 + -247330401473104534060502521019647190035131349101211839914063056092897225106531867170316401061243044989597671426016139339351365034306751209967546155101893167916606772148699136 * z_s28 + -13407807929942597099574024998205846127479365820592393377723561443721764030073546976801874298166903427690031858186486050853753882811946569946433649006084096 * z_s19 + -13407807929942597099574024998205846127479365820592393377723561443721764030073546976801874298166903427690031858186486050853753882811946569946433649006084096 * z_s12 + -726838724295606890549323807888004534353641360687318060281490199180639288113397923326191050713763565560762521606266177933534601628614656 * z_s6
    have : s54c < 1 := by linarith only [e, l_s54c, l_s54v, l_s53v, l_s52v, l_s50v, l_s49v, l_s47v, l_s46v, u_a_w4_y_w3, u_a_w2_y_w3, u_a_w0_y_w3, u_a_w5_y_w3, u_a_w3_y_w3, u_a_w1_y_w3, u_a_w4_y_w2, u_a_w2_y_w2, u_a_w5_y_w2, u_a_w3_y_w2, u_a_w1_y_w2, u_a_w4_y_w1, u_a_w2_y_w1, u_a_w5_y_w1, u_a_w3_y_w1, u_a_w4_y_w0, u_a_w5_y_w0, u_a_w3_y_w0]
    omega
  have e : 6277101735386680763835789423207666416102355444464034512896 * s46v + 115792089237316195423570985008687907853269984665640564039457584007913129639936 * s47v + 2135987035920910082395021706169552114602704522356652769947041607822219725780640550022962086936576 * s49v + 39402006196394479212279040100143613805079739270465446667948293404245721771497210611414266254884915640806627990306816 * s50v + 726838724295606890549323807888004534353641360687318060281490199180639288113397923326191050713763565560762521606266177933534601628614656 * s52v + 13407807929942597099574024998205846127479365820592393377723561443721764030073546976801874298166903427690031858186486050853753882811946569946433649006084096 * s53v + 247330401473104534060502521019647190035131349101211839914063056092897225106531867170316401061243044989597671426016139339351365034306751209967546155101893167916606772148699136 * s54v = 726838724295606890549323807888004534353641360687318060281490199180639288113397923326191050713763565560762521606266177933534601628614656 * (a_w4 * y_w3) + 2135987035920910082395021706169552114602704522356652769947041607822219725780640550022962086936576 * (a_w2 * y_w3) + 6277101735386680763835789423207666416102355444464034512896 * (a_w0 * y_w3) + 13407807929942597099574024998205846127479365820592393377723561443721764030073546976801874298166903427690031858186486050853753882811946569946433649006084096 * (a_w5 * y_w3) + 39402006196394479212279040100143613805079739270465446667948293404245721771497210611414266254884915640806627990306816 * (a_w3 * y_w3) + 115792089237316195423570985008687907853269984665640564039457584007913129639936 * (a_w1 * y_w3) + 39402006196394479212279040100143613805079739270465446667948293404245721771497210611414266254884915640806627990306816 * (a_w4 * y_w2) + 115792089237316195423570985008687907853269984665640564039457584007913129639936 * (a_w2 * y_w2) + 726838724295606890549323807888004534353641360687318060281490199180639288113397923326191050713763565560762521606266177933534601628614656 * (a_w5 * y_w2) + 2135987035920910082395021706169552114602704522356652769947041607822219725780640550022962086936576 * (a_w3 * y_w2) + 6277101735386680763835789423207666416102355444464034512896 * (a_w1 * y_w2) + 2135987035920910082395021706169552114602704522356652769947041607822219725780640550022962086936576 * (a_w4 * y_w1) + 6277101735386680763835789423207666416102355444464034512896 * (a_w2 * y_w1) + 39402006196394479212279040100143613805079739270465446667948293404245721771497210611414266254884915640806627990306816 * (a_w5 * y_w1) + 115792089237316195423570985008687907853269984665640564039457584007913129639936 * (a_w3 * y_w1) + 115792089237316195423570985008687907853269984665640564039457584007913129639936 * (a_w4 * y_w0) + 2135987035920910082395021706169552114602704522356652769947041607822219725780640550022962086936576 * (a_w5 * y_w0) + 6277101735386680763835789423207666416102355444464034512896 * (a_w3 * y_w0) := by
    linear_combination 247330401473104534060502521019647190035131349101211839914063056092897225106531867170316401061243044989597671426016139339351365034306751209967546155101893167916606772148699136 * e_s54 + 13407807929942597099574024998205846127479365820592393377723561443721764030073546976801874298166903427690031858186486050853753882811946569946433649006084096 * e_s53 + 726838724295606890549323807888004534353641360687318060281490199180639288113397923326191050713763565560762521606266177933534601628614656 * e_s52 + 726838724295606890549323807888004534353641360687318060281490199180639288113397923326191050713763565560762521606266177933534601628614656 * e_p51 + 39402006196394479212279040100143613805079739270465446667948293404245721771497210611414266254884915640806627990306816 * e_s50 + 2135987035920910082395021706169552114602704522356652769947041607822219725780640550022962086936576 * e_s49 + 2135987035920910082395021706169552114602704522356652769947041607822219725780640550022962086936576 * e_p48 + 115792089237316195423570985008687907853269984665640564039457584007913129639936 * e_s47 + 6277101735386680763835789423207666416102355444464034512896 * e_s46 + 6277101735386680763835789423207666416102355444464034512896 * e_p45 + 247330401473104534060502521019647190035131349101211839914063056092897225106531867170316401061243044989597671426016139339351365034306751209967546155101893167916606772148699136 * e_s44 + 13407807929942597099574024998205846127479365820592393377723561443721764030073546976801874298166903427690031858186486050853753882811946569946433649006084096 * e_s43 + 13407807929942597099574024998205846127479365820592393377723561443721764030073546976801874298166903427690031858186486050853753882811946569946433649006084096 * e_p42 + 726838724295606890549323807888004534353641360687318060281490199180639288113397923326191050713763565560762521606266177933534601628614656 * e_s41 + 39402006196394479212279040100143613805079739270465446667948293404245721771497210611414266254884915640806627990306816 * e_s40 + 39402006196394479212279040100143613805079739270465446667948293404245721771497210611414266254884915640806627990306816 * e_p39 + 2135987035920910082395021706169552114602704522356652769947041607822219725780640550022962086936576 * e_s38 + 115792089237316195423570985008687907853269984665640564039457584007913129639936 * e_s37 + 115792089237316195423570985008687907853269984665640564039457584007913129639936 * e_p36 + 13407807929942597099574024998205846127479365820592393377723561443721764030073546976801874298166903427690031858186486050853753882811946569946433649006084096 * e_s35 + 726838724295606890549323807888004534353641360687318060281490199180639288113397923326191050713763565560762521606266177933534601628614656 * e_s34 + 39402006196394479212279040100143613805079739270465446667948293404245721771497210611414266254884915640806627990306816 * e_s33 + 39402006196394479212279040100143613805079739270465446667948293404245721771497210611414266254884915640806627990306816 * e_p32 + 2135987035920910082395021706169552114602704522356652769947041607822219725780640550022962086936576 * e_s31 + 115792089237316195423570985008687907853269984665640564039457584007913129639936 * e_s30 + 115792089237316195423570985008687907853269984665640564039457584007913129639936 * e_p29 + 13407807929942597099574024998205846127479365820592393377723561443721764030073546976801874298166903427690031858186486050853753882811946569946433649006084096 * e_s28 + 726838724295606890549323807888004534353641360687318060281490199180639288113397923326191050713763565560762521606266177933534601628614656 * e_s27 + 726838724295606890549323807888004534353641360687318060281490199180639288113397923326191050713763565560762521606266177933534601628614656 * e_p26 + 39402006196394479212279040100143613805079739270465446667948293404245721771497210611414266254884915640806627990306816 * e_s25 + 2135987035920910082395021706169552114602704522356652769947041607822219725780640550022962086936576 * e_s24 + 2135987035920910082395021706169552114602704522356652769947041607822219725780640550022962086936576 * e_p23 + 115792089237316195423570985008687907853269984665640564039457584007913129639936 * e_s22 + 6277101735386680763835789423207666416102355444464034512896 * e_s21 + 6277101735386680763835789423207666416102355444464034512896 * e_p20 + 726838724295606890549323807888004534353641360687318060281490199180639288113397923326191050713763565560762521606266177933534601628614656 * e_s19 + 39402006196394479212279040100143613805079739270465446667948293404245721771497210611414266254884915640806627990306816 * e_s18 + 2135987035920910082395021706169552114602704522356652769947041607822219725780640550022962086936576 * e_s17 + 2135987035920910082395021706169552114602704522356652769947041607822219725780640550022962086936576 * e_p16 + 115792089237316195423570985008687907853269984665640564039457584007913129639936 * e_s15 + 6277101735386680763835789423207666416102355444464034512896 * e_s14 + 6277101735386680763835789423207666416102355444464034512896 * e_p13 + 726838724295606890549323807888004534353641360687318060281490199180639288113397923326191050713763565560762521606266177933534601628614656 * e_s12 + 39402006196394479212279040100143613805079739270465446667948293404245721771497210611414266254884915640806627990306816 * e_s11 + 39402006196394479212279040100143613805079739270465446667948293404245721771497210611414266254884915640806627990306816 * e_p10 + 2135987035920910082395021706169552114602704522356652769947041607822219725780640550022962086936576 * e_s9 + 115792089237316195423570985008687907853269984665640564039457584007913129639936 * e_s8 + 115792089237316195423570985008687907853269984665640564039457584007913129639936 * e_p7 + 39402006196394479212279040100143613805079739270465446667948293404245721771497210611414266254884915640806627990306816 * e_s6 + 2135987035920910082395021706169552114602704522356652769947041607822219725780640550022962086936576 * e_s5 + 115792089237316195423570985008687907853269984665640564039457584007913129639936 * e_s4 + 115792089237316195423570985008687907853269984665640564039457584007913129639936 * e_p3 + 2135987035920910082395021706169552114602704522356652769947041607822219725780640550022962086936576 * e_p2 + 6277101735386680763835789423207666416102355444464034512896 * e_p1 + -4562440617622195218641171605700291324893228507248559930579192517899275167208677386505912811317371399778642309573594407310688704721375437998252661319722214188251994674360264950082874192246603776 * z_s54 + -4562440617622195218641171605700291324893228507248559930579192517899275167208677386505912811317371399778642309573594407310688704721375437998252661319722214188251994674360264950082874192246603776 * z_s44 + -247330401473104534060502521019647190035131349101211839914063056092897225106531867170316401061243044989597671426016139339351365034306751209967546155101893167916606772148699136 * z_s35 + -247330401473104534060502521019647190035131349101211839914063056092897225106531867170316401061243044989597671426016139339351365034306751209967546155101893167916606772148699136 * z_s28 + -13407807929942597099574024998205846127479365820592393377723561443721764030073546976801874298166903427690031858186486050853753882811946569946433649006084096 * z_s19 + -13407807929942597099574024998205846127479365820592393377723561443721764030073546976801874298166903427690031858186486050853753882811946569946433649006084096 * z_s12 + -726838724295606890549323807888004534353641360687318060281490199180639288113397923326191050713763565560762521606266177933534601628614656 * z_s6
  have f : (a_w0 + 18446744073709551616 * a_w1 + 340282366920938463463374607431768211456 * a_w2 + 6277101735386680763835789423207666416102355444464034512896 * a_w3 + 115792089237316195423570985008687907853269984665640564039457584007913129639936 * a_w4 + 2135987035920910082395021706169552114602704522356652769947041607822219725780640550022962086936576 * a_w5) * (y_w0 + 18446744073709551616 * y_w1 + 340282366920938463463374607431768211456 * y_w2 + 6277101735386680763835789423207666416102355444464034512896 * y_w3) = 1 * (a_w0 * y_w0) + 18446744073709551616 * (a_w0 * y_w1) + 340282366920938463463374607431768211456 * (a_w0 * y_w2) + 6277101735386680763835789423207666416102355444464034512896 * (a_w0 * y_w3) + 18446744073709551616 * (a_w1 * y_w0) + 340282366920938463463374607431768211456 * (a_w1 * y_w1) + 6277101735386680763835789423207666416102355444464034512896 * (a_w1 * y_w2) + 115792089237316195423570985008687907853269984665640564039457584007913129639936 * (a_w1 * y_w3) + 340282366920938463463374607431768211456 * (a_w2 * y_w0) + 6277101735386680763835789423207666416102355444464034512896 * (a_w2 * y_w1) + 115792089237316195423570985008687907853269984665640564039457584007913129639936 * (a_w2 * y_w2) + 2135987035920910082395021706169552114602704522356652769947041607822219725780640550022962086936576 * (a_w2 * y_w3) + 6277101735386680763835789423207666416102355444464034512896 * (a_w3 * y_w0) + 115792089237316195423570985008687907853269984665640564039457584007913129639936 * (a_w3 * y_w1) + 2135987035920910082395021706169552114602704522356652769947041607822219725780640550022962086936576 * (a_w3 * y_w2) + 39402006196394479212279040100143613805079739270465446667948293404245721771497210611414266254884915640806627990306816 * (a_w3 * y_w3) + 115792089237316195423570985008687907853269984665640564039457584007913129639936 * (a_w4 * y_w0) + 2135987035920910082395021706169552114602704522356652769947041607822219725780640550022962086936576 * (a_w4 * y_w1) + 39402006196394479212279040100143613805079739270465446667948293404245721771497210611414266254884915640806627990306816 * (a_w4 * y_w2) + 726838724295606890549323807888004534353641360687318060281490199180639288113397923326191050713763565560762521606266177933534601628614656 * (a_w4 * y_w3) + 2135987035920910082395021706169552114602704522356652769947041607822219725780640550022962086936576 * (a_w5 * y_w0) + 39402006196394479212279040100143613805079739270465446667948293404245721771497210611414266254884915640806627990306816 * (a_w5 * y_w1) + 726838724295606890549323807888004534353641360687318060281490199180639288113397923326191050713763565560762521606266177933534601628614656 * (a_w5 * y_w2) + 13407807929942597099574024998205846127479365820592393377723561443721764030073546976801874298166903427690031858186486050853753882811946569946433649006084096 * (a_w5 * y_w3) := by ring
  rw [f]
  constructor
  · linarith only [e, l_a_w0_y_w0, l_a_w0_y_w1, l_a_w0_y_w2, l_a_w1_y_w0, l_a_w1_y_w1, l_a_w2_y_w0]
  · linarith only [e, u_a_w0_y_w0, u_a_w0_y_w1, u_a_w0_y_w2, u_a_w1_y_w0, u_a_w1_y_w1, u_a_w2_y_w0]

theorem recipMul4_spec (a : Words6) (y : U256) :
    6277101735386680763835789423207666416102355444464034512896 * ((recipMul4 a y).toNat : ℤ) ≤ a.toNat * y.toNat ∧ (a.toNat * y.toNat : ℤ) < 6277101735386680763835789423207666416102355444464034512896 * ((recipMul4 a y).toNat + 73786976294838206464) := by
  unfold recipMul4
  extract_lets p1 p2 p3 s4 s5 s6 p7 s8 s9 p10 s11 s12 p13 s14 s15 p16 s17 s18 s19 p20 s21 s22 p23 s24 s25 p26 s27 s28 p29 s30 s31 p32 s33 s34 s35 p36 s37 s38 p39 s40 s41 p42 s43 s44 p45 s46 s47 p48 s49 s50 p51 s52 s53 s54
  have e_p1 : (p1.2.toNat : ℤ) + 18446744073709551616 * p1.1.toNat = a.w3.toNat * y.w0.toNat := mulZ _ _
  have e_p2 : (p2.2.toNat : ℤ) + 18446744073709551616 * p2.1.toNat = a.w5.toNat * y.w0.toNat := mulZ _ _
  have e_p3 : (p3.2.toNat : ℤ) + 18446744073709551616 * p3.1.toNat = a.w4.toNat * y.w0.toNat := mulZ _ _
  have e_s4 : (s4.1.toNat : ℤ) + 18446744073709551616 * s4.2.toNat = p1.1.toNat + p3.2.toNat ∧ s4.2.toNat ≤ 1 := addZc _ _
  have e_s5 : (s5.1.toNat : ℤ) + 18446744073709551616 * s5.2.toNat = p2.2.toNat + p3.1.toNat + s4.2.toNat ∧ s5.2.toNat ≤ 1 := addZ _ _ _ e_s4.2
  have e_s6 : (s6.1.toNat : ℤ) + 18446744073709551616 * s6.2.toNat = p2.1.toNat + s5.2.toNat ∧ s6.2.toNat ≤ 1 := addZ0 _ _ e_s5.2
  have e_p7 : (p7.2.toNat : ℤ) + 18446744073709551616 * p7.1.toNat = a.w3.toNat * y.w1.toNat := mulZ _ _
  have e_s8 : (s8.1.toNat : ℤ) + 18446744073709551616 * s8.2.toNat = s4.1.toNat + p7.2.toNat ∧ s8.2.toNat ≤ 1 := addZc _ _
  have e_s9 : (s9.1.toNat : ℤ) + 18446744073709551616 * s9.2.toNat = s5.1.toNat + p7.1.toNat + s8.2.toNat ∧ s9.2.toNat ≤ 1 := addZ _ _ _ e_s8.2
  have e_p10 : (p10.2.toNat : ℤ) + 18446744073709551616 * p10.1.toNat = a.w5.toNat * y.w1.toNat := mulZ _ _
  have e_s11 : (s11.1.toNat : ℤ) + 18446744073709551616 * s11.2.toNat = s6.1.toNat + p10.2.toNat + s9.2.toNat ∧ s11.2.toNat ≤ 1 := addZ _ _ _ e_s9.2
  have e_s12 : (s12.1.toNat : ℤ) + 18446744073709551616 * s12.2.toNat = p10.1.toNat + s11.2.toNat ∧ s12.2.toNat ≤ 1 := addZ0 _ _ e_s11.2
  have e_p13 : (p13.2.toNat : ℤ) + 18446744073709551616 * p13.1.toNat = a.w2.toNat * y.w1.toNat := mulZ _ _
  have e_s14 : (s14.1.toNat : ℤ) + 18446744073709551616 * s14.2.toNat = p1.2.toNat + p13.2.toNat ∧ s14.2.toNat ≤ 1 := addZc _ _
  have e_s15 : (s15.1.toNat : ℤ) + 18446744073709551616 * s15.2.toNat = s8.1.toNat + p13.1.toNat + s14.2.toNat ∧ s15.2.toNat ≤ 1 := addZ _ _ _ e_s14.2
  have e_p16 : (p16.2.toNat : ℤ) + 18446744073709551616 * p16.1.toNat = a.w4.toNat * y.w1.toNat := mulZ _ _
  have e_s17 : (s17.1.toNat : ℤ) + 18446744073709551616 * s17.2.toNat = s9.1.toNat + p16.2.toNat + s15.2.toNat ∧ s17.2.toNat ≤ 1 := addZ _ _ _ e_s15.2
  have e_s18 : (s18.1.toNat : ℤ) + 18446744073709551616 * s18.2.toNat = s11.1.toNat + p16.1.toNat + s17.2.toNat ∧ s18.2.toNat ≤ 1 := addZ _ _ _ e_s17.2
  have e_s19 : (s19.1.toNat : ℤ) + 18446744073709551616 * s19.2.toNat = s12.1.toNat + s18.2.toNat ∧ s19.2.toNat ≤ 1 := addZ0 _ _ e_s18.2
  have e_p20 : (p20.2.toNat : ℤ) + 18446744073709551616 * p20.1.toNat = a.w1.toNat * y.w2.toNat := mulZ _ _
  have e_s21 : (s21.1.toNat : ℤ) + 18446744073709551616 * s21.2.toNat = s14.1.toNat + p20.2.toNat ∧ s21.2.toNat ≤ 1 := addZc _ _
  have e_s22 : (s22.1.toNat : ℤ) + 18446744073709551616 * s22.2.toNat = s15.1.toNat + p20.1.toNat + s21.2.toNat ∧ s22.2.toNat ≤ 1 := addZ _ _ _ e_s21.2
  have e_p23 : (p23.2.toNat : ℤ) + 18446744073709551616 * p23.1.toNat = a.w3.toNat * y.w2.toNat := mulZ _ _
  have e_s24 : (s24.1.toNat : ℤ) + 18446744073709551616 * s24.2.toNat = s17.1.toNat + p23.2.toNat + s22.2.toNat ∧ s24.2.toNat ≤ 1 := addZ _ _ _ e_s22.2
  have e_s25 : (s25.1.toNat : ℤ) + 18446744073709551616 * s25.2.toNat = s18.1.toNat + p23.1.toNat + s24.2.toNat ∧ s25.2.toNat ≤ 1 := addZ _ _ _ e_s24.2
  have e_p26 : (p26.2.toNat : ℤ) + 18446744073709551616 * p26.1.toNat = a.w5.toNat * y.w2.toNat := mulZ _ _
  have e_s27 : (s27.1.toNat : ℤ) + 18446744073709551616 * s27.2.toNat = s19.1.toNat + p26.2.toNat + s25.2.toNat ∧ s27.2.toNat ≤ 1 := addZ _ _ _ e_s25.2
  have e_s28 : (s28.1.toNat : ℤ) + 18446744073709551616 * s28.2.toNat = p26.1.toNat + s27.2.toNat ∧ s28.2.toNat ≤ 1 := addZ0 _ _ e_s27.2
  have e_p29 : (p29.2.toNat : ℤ) + 18446744073709551616 * p29.1.toNat = a.w2.toNat * y.w2.toNat := mulZ _ _
  have e_s30 : (s30.1.toNat : ℤ) + 18446744073709551616 * s30.2.toNat = s22.1.toNat + p29.2.toNat ∧ s30.2.toNat ≤ 1 := addZc _ _
  have e_s31 : (s31.1.toNat : ℤ) + 18446744073709551616 * s31.2.toNat = s24.1.toNat + p29.1.toNat + s30.2.toNat ∧ s31.2.toNat ≤ 1 := addZ _ _ _ e_s30.2
  have e_p32 : (p32.2.toNat : ℤ) + 18446744073709551616 * p32.1.toNat = a.w4.toNat * y.w2.toNat := mulZ _ _
  have e_s33 : (s33.1.toNat : ℤ) + 18446744073709551616 * s33.2.toNat = s25.1.toNat + p32.2.toNat + s31.2.toNat ∧ s33.2.toNat ≤ 1 := addZ _ _ _ e_s31.2
  have e_s34 : (s34.1.toNat : ℤ) + 18446744073709551616 * s34.2.toNat = s27.1.toNat + p32.1.toNat + s33.2.toNat ∧ s34.2.toNat ≤ 1 := addZ _ _ _ e_s33.2
  have e_s35 : (s35.1.toNat : ℤ) + 18446744073709551616 * s35.2.toNat = s28.1.toNat + s34.2.toNat ∧ s35.2.toNat ≤ 1 := addZ0 _ _ e_s34.2
  have e_p36 : (p36.2.toNat : ℤ) + 18446744073709551616 * p36.1.toNat = a.w1.toNat * y.w3.toNat := mulZ _ _
  have e_s37 : (s37.1.toNat : ℤ) + 18446744073709551616 * s37.2.toNat = s30.1.toNat + p36.2.toNat ∧ s37.2.toNat ≤ 1 := addZc _ _
  have e_s38 : (s38.1.toNat : ℤ) + 18446744073709551616 * s38.2.toNat = s31.1.toNat + p36.1.toNat + s37.2.toNat ∧ s38.2.toNat ≤ 1 := addZ _ _ _ e_s37.2
  have e_p39 : (p39.2.toNat : ℤ) + 18446744073709551616 * p39.1.toNat = a.w3.toNat * y.w3.toNat := mulZ _ _
  have e_s40 : (s40.1.toNat : ℤ) + 18446744073709551616 * s40.2.toNat = s33.1.toNat + p39.2.toNat + s38.2.toNat ∧ s40.2.toNat ≤ 1 := addZ _ _ _ e_s38.2
  have e_s41 : (s41.1.toNat : ℤ) + 18446744073709551616 * s41.2.toNat = s34.1.toNat + p39.1.toNat + s40.2.toNat ∧ s41.2.toNat ≤ 1 := addZ _ _ _ e_s40.2
  have e_p42 : (p42.2.toNat : ℤ) + 18446744073709551616 * p42.1.toNat = a.w5.toNat * y.w3.toNat := mulZ _ _
  have e_s43 : (s43.1.toNat : ℤ) + 18446744073709551616 * s43.2.toNat = s35.1.toNat + p42.2.toNat + s41.2.toNat ∧ s43.2.toNat ≤ 1 := addZ _ _ _ e_s41.2
  have e_s44 : (s44.1.toNat : ℤ) + 18446744073709551616 * s44.2.toNat = p42.1.toNat + s43.2.toNat ∧ s44.2.toNat ≤ 1 := addZ0 _ _ e_s43.2
  have e_p45 : (p45.2.toNat : ℤ) + 18446744073709551616 * p45.1.toNat = a.w0.toNat * y.w3.toNat := mulZ _ _
  have e_s46 : (s46.1.toNat : ℤ) + 18446744073709551616 * s46.2.toNat = s21.1.toNat + p45.2.toNat ∧ s46.2.toNat ≤ 1 := addZc _ _
  have e_s47 : (s47.1.toNat : ℤ) + 18446744073709551616 * s47.2.toNat = s37.1.toNat + p45.1.toNat + s46.2.toNat ∧ s47.2.toNat ≤ 1 := addZ _ _ _ e_s46.2
  have e_p48 : (p48.2.toNat : ℤ) + 18446744073709551616 * p48.1.toNat = a.w2.toNat * y.w3.toNat := mulZ _ _
  have e_s49 : (s49.1.toNat : ℤ) + 18446744073709551616 * s49.2.toNat = s38.1.toNat + p48.2.toNat + s47.2.toNat ∧ s49.2.toNat ≤ 1 := addZ _ _ _ e_s47.2
  have e_s50 : (s50.1.toNat : ℤ) + 18446744073709551616 * s50.2.toNat = s40.1.toNat + p48.1.toNat + s49.2.toNat ∧ s50.2.toNat ≤ 1 := addZ _ _ _ e_s49.2
  have e_p51 : (p51.2.toNat : ℤ) + 18446744073709551616 * p51.1.toNat = a.w4.toNat * y.w3.toNat := mulZ _ _
  have e_s52 : (s52.1.toNat : ℤ) + 18446744073709551616 * s52.2.toNat = s41.1.toNat + p51.2.toNat + s50.2.toNat ∧ s52.2.toNat ≤ 1 := addZ _ _ _ e_s50.2
  have e_s53 : (s53.1.toNat : ℤ) + 18446744073709551616 * s53.2.toNat = s43.1.toNat + p51.1.toNat + s52.2.toNat ∧ s53.2.toNat ≤ 1 := addZ _ _ _ e_s52.2
  have e_s54 : (s54.1.toNat : ℤ) + 18446744073709551616 * s54.2.toNat = s44.1.toNat + s53.2.toNat ∧ s54.2.toNat ≤ 1 := addZ0 _ _ e_s53.2
  clear_value p1 p2 p3 s4 s5 s6 p7 s8 s9 p10 s11 s12 p13 s14 s15 p16 s17 s18 s19 p20 s21 s22 p23 s24 s25 p26 s27 s28 p29 s30 s31 p32 s33 s34 s35 p36 s37 s38 p39 s40 s41 p42 s43 s44 p45 s46 s47 p48 s49 s50 p51 s52 s53 s54
  have h := recipMul4_core wL wU wL wU wL wU wL wU wL wU wL wU wL wU wL wU wL wU wL wU e_p1 wL e_p2 e_p3 e_s4.1 wL e_s5.1 wL e_s6.1 wL wL e_p7 e_s8.1 wL e_s9.1 wL e_p10 e_s11.1 wL e_s12.1 wL wL e_p13 e_s14.1 wL e_s15.1 wL e_p16 e_s17.1 wL e_s18.1 wL e_s19.1 wL wL e_p20 e_s21.1 wL e_s22.1 wL e_p23 e_s24.1 wL e_s25.1 wL e_p26 e_s27.1 wL e_s28.1 wL wL e_p29 e_s30.1 wL e_s31.1 wL e_p32 e_s33.1 wL e_s34.1 wL e_s35.1 wL wL e_p36 e_s37.1 wL e_s38.1 wL e_p39 e_s40.1 wL e_s41.1 wL e_p42 e_s43.1 wL e_s44.1 wL wL e_p45 e_s46.1 wL e_s47.1 wL e_p48 e_s49.1 wL e_s50.1 wL e_p51 e_s52.1 wL e_s53.1 wL e_s54.1 wL wL
  rw [Words7.toZ, Words6.toZ a, U256.toZ y]
  exact h

theorem recipMul5_core {x_w0 x_w1 x_w2 x_w3 x_w4 y_w0 y_w1 y_w2 y_w3 p1h p1l p2h p2l p3h p3l p4h p4l s5v s5c s6v s6c p7h p7l s8v s8c s9v s9c s10v s10c p11h p11l s12v s12c s13v s13c p14h p14l s15v s15c s16v s16c p17h p17l s18v s18c s19v s19c p20h p20l s21v s21c s22v s22c p23h p23l s24v s24c s25v s25c s26v s26c p27h p27l s28v s28c s29v s29c p30h p30l s31v s31c s32v s32c p33h p33l s34v s34c s35v s35c p36h p36l s37v s37c s38v s38c p39h p39l s40v s40c s41v s41c s42v s42c p43h p43l s44v s44c s45v s45c p46h p46l s47v s47c s48v s48c p49h p49l s50v s50c s51v s51c p52h p52l s53v s53c s54v s54c p55h p55l s56v s56c s57v s57c s58v s58c : ℤ}
    (l_x_w0 : 0 ≤ x_w0)
    (u_x_w0 : x_w0 ≤ 18446744073709551615)
    (l_x_w1 : 0 ≤ x_w1)
    (u_x_w1 : x_w1 ≤ 18446744073709551615)
    (l_x_w2 : 0 ≤ x_w2)
    (u_x_w2 : x_w2 ≤ 18446744073709551615)
    (l_x_w3 : 0 ≤ x_w3)
    (u_x_w3 : x_w3 ≤ 18446744073709551615)
    (l_x_w4 : 0 ≤ x_w4)
    (u_x_w4 : x_w4 ≤ 18446744073709551615)
    (l_y_w0 : 0 ≤ y_w0)
    (u_y_w0 : y_w0 ≤ 18446744073709551615)
    (l_y_w1 : 0 ≤ y_w1)
    (u_y_w1 : y_w1 ≤ 18446744073709551615)
    (l_y_w2 : 0 ≤ y_w2)
    (u_y_w2 : y_w2 ≤ 18446744073709551615)
    (l_y_w3 : 0 ≤ y_w3)
    (u_y_w3 : y_w3 ≤ 18446744073709551615)
    (e_p1 : p1l + 18446744073709551616 * p1h = x_w0 * y_w0)
    (l_p1l : 0 ≤ p1l)
    (e_p2 : p2l + 18446744073709551616 * p2h = x_w2 * y_w0)
    (e_p3 : p3l + 18446744073709551616 * p3h = x_w4 * y_w0)
    (e_p4 : p4l + 18446744073709551616 * p4h = x_w1 * y_w0)
    (e_s5 : s5v + 18446744073709551616 * s5c = p1h + p4l)
    (l_s5v : 0 ≤ s5v)
    (e_s6 : s6v + 18446744073709551616 * s6c = p2l + p4h + s5c)
    (l_s6v : 0 ≤ s6v)
    (e_p7 : p7l + 18446744073709551616 * p7h = x_w3 * y_w0)
    (e_s8 : s8v + 18446744073709551616 * s8c = p2h + p7l + s6c)
    (l_s8v : 0 ≤ s8v)
    (e_s9 : s9v + 18446744073709551616 * s9c = p3l + p7h + s8c)
    (l_s9v : 0 ≤ s9v)
    (e_s10 : s10v + 18446744073709551616 * s10c = p3h + s9c)
    (l_s10v : 0 ≤ s10v)
    (l_s10c : 0 ≤ s10c)
    (e_p11 : p11l + 18446744073709551616 * p11h = x_w0 * y_w1)
    (e_s12 : s12v + 18446744073709551616 * s12c = s5v + p11l)
    (l_s12v : 0 ≤ s12v)
    (e_s13 : s13v + 18446744073709551616 * s13c = s6v + p11h + s12c)
    (l_s13v : 0 ≤ s13v)
    (e_p14 : p14l + 18446744073709551616 * p14h = x_w2 * y_w1)
    (e_s15 : s15v + 18446744073709551616 * s15c = s8v + p14l + s13c)
    (l_s15v : 0 ≤ s15v)
    (e_s16 : s16v + 18446744073709551616 * s16c = s9v + p14h + s15c)
    (l_s16v : 0 ≤ s16v)
    (e_p17 : p17l + 18446744073709551616 * p17h = x_w4 * y_w1)
    (e_s18 : s18v + 18446744073709551616 * s18c = s10v + p17l + s16c)
    (l_s18v : 0 ≤ s18v)
    (e_s19 : s19v + 18446744073709551616 * s19c = p17h + s18c)
    (l_s19v : 0 ≤ s19v)
    (l_s19c : 0 ≤ s19c)
    (e_p20 : p20l + 18446744073709551616 * p20h = x_w1 * y_w1)
    (e_s21 : s21v + 18446744073709551616 * s21c = s13v + p20l)
    (l_s21v : 0 ≤ s21v)
    (e_s22 : s22v + 18446744073709551616 * s22c = s15v + p20h + s21c)
    (l_s22v : 0 ≤ s22v)
    (e_p23 : p23l + 18446744073709551616 * p23h = x_w3 * y_w1)
    (e_s24 : s24v + 18446744073709551616 * s24c = s16v + p23l + s22c)
    (l_s24v : 0 ≤ s24v)
    (e_s25 : s25v + 18446744073709551616 * s25c = s18v + p23h + s24c)
    (l_s25v : 0 ≤ s25v)
    (e_s26 : s26v + 18446744073709551616 * s26c = s19v + s25c)
    (l_s26v : 0 ≤ s26v)
    (l_s26c : 0 ≤ s26c)
    (e_p27 : p27l + 18446744073709551616 * p27h = x_w0 * y_w2)
    (e_s28 : s28v + 18446744073709551616 * s28c = s21v + p27l)
    (l_s28v : 0 ≤ s28v)
    (e_s29 : s29v + 18446744073709551616 * s29c = s22v + p27h + s28c)
    (l_s29v : 0 ≤ s29v)
    (e_p30 : p30l + 18446744073709551616 * p30h = x_w2 * y_w2)
    (e_s31 : s31v + 18446744073709551616 * s31c = s24v + p30l + s29c)
    (l_s31v : 0 ≤ s31v)
    (e_s32 : s32v + 18446744073709551616 * s32c = s25v + p30h + s31c)
    (l_s32v : 0 ≤ s32v)
    (e_p33 : p33l + 18446744073709551616 * p33h = x_w4 * y_w2)
    (e_s34 : s34v + 18446744073709551616 * s34c = s26v + p33l + s32c)
    (l_s34v : 0 ≤ s34v)
    (e_s35 : s35v + 18446744073709551616 * s35c = p33h + s34c)
    (l_s35v : 0 ≤ s35v)
    (l_s35c : 0 ≤ s35c)
    (e_p36 : p36l + 18446744073709551616 * p36h = x_w1 * y_w2)
    (e_s37 : s37v + 18446744073709551616 * s37c = s29v + p36l)
    (l_s37v : 0 ≤ s37v)
    (e_s38 : s38v + 18446744073709551616 * s38c = s31v + p36h + s37c)
    (l_s38v : 0 ≤ s38v)
    (e_p39 : p39l + 18446744073709551616 * p39h = x_w3 * y_w2)
    (e_s40 : s40v + 18446744073709551616 * s40c = s32v + p39l + s38c)
    (l_s40v : 0 ≤ s40v)
    (e_s41 : s41v + 18446744073709551616 * s41c = s34v + p39h + s40c)
    (l_s41v : 0 ≤ s41v)
    (e_s42 : s42v + 18446744073709551616 * s42c = s35v + s41c)
    (l_s42v : 0 ≤ s42v)
    (l_s42c : 0 ≤ s42c)
    (e_p43 : p43l + 18446744073709551616 * p43h = x_w0 * y_w3)
    (e_s44 : s44v + 18446744073709551616 * s44c = s37v + p43l)
    (l_s44v : 0 ≤ s44v)
    (e_s45 : s45v + 18446744073709551616 * s45c = s38v + p43h + s44c)
    (l_s45v : 0 ≤ s45v)
    (e_p46 : p46l + 18446744073709551616 * p46h = x_w2 * y_w3)
    (e_s47 : s47v + 18446744073709551616 * s47c = s40v + p46l + s45c)
    (l_s47v : 0 ≤ s47v)
    (e_s48 : s48v + 18446744073709551616 * s48c = s41v + p46h + s47c)
    (l_s48v : 0 ≤ s48v)
    (e_p49 : p49l + 18446744073709551616 * p49h = x_w4 * y_w3)
    (e_s50 : s50v + 18446744073709551616 * s50c = s42v + p49l + s48c)
    (l_s50v : 0 ≤ s50v)
    (e_s51 : s51v + 18446744073709551616 * s51c = p49h + s50c)
    (l_s51v : 0 ≤ s51v)
    (l_s51c : 0 ≤ s51c)
    (e_p52 : p52l + 18446744073709551616 * p52h = x_w1 * y_w3)
    (e_s53 : s53v + 18446744073709551616 * s53c = s45v + p52l)
    (l_s53v : 0 ≤ s53v)
    (e_s54 : s54v + 18446744073709551616 * s54c = s47v + p52h + s53c)
    (l_s54v : 0 ≤ s54v)
    (e_p55 : p55l + 18446744073709551616 * p55h = x_w3 * y_w3)
    (e_s56 : s56v + 18446744073709551616 * s56c = s48v + p55l + s54c)
    (l_s56v : 0 ≤ s56v)
    (e_s57 : s57v + 18446744073709551616 * s57c = s50v + p55h + s56c)
    (l_s57v : 0 ≤ s57v)
    (e_s58 : s58v + 18446744073709551616 * s58c = s51v + s57c)
    (l_s58v : 0 ≤ s58v)
    (l_s58c : 0 ≤ s58c) :
    p1l + 18446744073709551616 * s12v + 340282366920938463463374607431768211456 * s28v + 6277101735386680763835789423207666416102355444464034512896 * s44v + 115792089237316195423570985008687907853269984665640564039457584007913129639936 * s53v + 2135987035920910082395021706169552114602704522356652769947041607822219725780640550022962086936576 * s54v + 39402006196394479212279040100143613805079739270465446667948293404245721771497210611414266254884915640806627990306816 * s56v + 726838724295606890549323807888004534353641360687318060281490199180639288113397923326191050713763565560762521606266177933534601628614656 * s57v + 13407807929942597099574024998205846127479365820592393377723561443721764030073546976801874298166903427690031858186486050853753882811946569946433649006084096 * s58v = (x_w0 + 18446744073709551616 * x_w1 + 340282366920938463463374607431768211456 * x_w2 + 6277101735386680763835789423207666416102355444464034512896 * x_w3 + 115792089237316195423570985008687907853269984665640564039457584007913129639936 * x_w4) * (y_w0 + 18446744073709551616 * y_w1 + 340282366920938463463374607431768211456 * y_w2 + 6277101735386680763835789423207666416102355444464034512896 * y_w3) := by
  have l_x_w0_y_w0 : 0 ≤ x_w0 * y_w0 := mul_nonneg l_x_w0 l_y_w0
  have u_x_w0_y_w0 : x_w0 * y_w0 ≤ 340282366920938463426481119284349108225 := prod_le l_y_w0 u_x_w0 u_y_w0
  have l_x_w0_y_w1 : 0 ≤ x_w0 * y_w1 := mul_nonneg l_x_w0 l_y_w1
  have u_x_w0_y_w1 : x_w0 * y_w1 ≤ 340282366920938463426481119284349108225 := prod_le l_y_w1 u_x_w0 u_y_w1
  have l_x_w0_y_w2 : 0 ≤ x_w0 * y_w2 := mul_nonneg l_x_w0 l_y_w2
  have u_x_w0_y_w2 : x_w0 * y_w2 ≤ 340282366920938463426481119284349108225 := prod_le l_y_w2 u_x_w0 u_y_w2
  have l_x_w0_y_w3 : 0 ≤ x_w0 * y_w3 := mul_nonneg l_x_w0 l_y_w3
  have u_x_w0_y_w3 : x_w0 * y_w3 ≤ 340282366920938463426481119284349108225 := prod_le l_y_w3 u_x_w0 u_y_w3
  have l_x_w1_y_w0 : 0 ≤ x_w1 * y_w0 := mul_nonneg l_x_w1 l_y_w0
  have u_x_w1_y_w0 : x_w1 * y_w0 ≤ 340282366920938463426481119284349108225 := prod_le l_y_w0 u_x_w1 u_y_w0
  have l_x_w1_y_w1 : 0 ≤ x_w1 * y_w1 := mul_nonneg l_x_w1 l_y_w1
  have u_x_w1_y_w1 : x_w1 * y_w1 ≤ 340282366920938463426481119284349108225 := prod_le l_y_w1 u_x_w1 u_y_w1
  have l_x_w1_y_w2 : 0 ≤ x_w1 * y_w2 := mul_nonneg l_x_w1 l_y_w2
  have u_x_w1_y_w2 : x_w1 * y_w2 ≤ 340282366920938463426481119284349108225 := prod_le l_y_w2 u_x_w1 u_y_w2
  have l_x_w1_y_w3 : 0 ≤ x_w1 * y_w3 := mul_nonneg l_x_w1 l_y_w3
  have u_x_w1_y_w3 : x_w1 * y_w3 ≤ 340282366920938463426481119284349108225 := prod_le l_y_w3 u_x_w1 u_y_w3
  have l_x_w2_y_w0 : 0 ≤ x_w2 * y_w0 := mul_nonneg l_x_w2 l_y_w0
  have u_x_w2_y_w0 : x_w2 * y_w0 ≤ 340282366920938463426481119284349108225 := prod_le l_y_w0 u_x_w2 u_y_w0
  have l_x_w2_y_w1 : 0 ≤ x_w2 * y_w1 := mul_nonneg l_x_w2 l_y_w1
  have u_x_w2_y_w1 : x_w2 * y_w1 ≤ 340282366920938463426481119284349108225 := prod_le l_y_w1 u_x_w2 u_y_w1
  have l_x_w2_y_w2 : 0 ≤ x_w2 * y_w2 := mul_nonneg l_x_w2 l_y_w2
  have u_x_w2_y_w2 : x_w2 * y_w2 ≤ 340282366920938463426481119284349108225 := prod_le l_y_w2 u_x_w2 u_y_w2
  have l_x_w2_y_w3 : 0 ≤ x_w2 * y_w3 := mul_nonneg l_x_w2 l_y_w3
  have u_x_w2_y_w3 : x_w2 * y_w3 ≤ 340282366920938463426481119284349108225 := prod_le l_y_w3 u_x_w2 u_y_w3
  have l_x_w3_y_w0 : 0 ≤ x_w3 * y_w0 := mul_nonneg l_x_w3 l_y_w0
  have u_x_w3_y_w0 : x_w3 * y_w0 ≤ 340282366920938463426481119284349108225 := prod_le l_y_w0 u_x_w3 u_y_w0
  have l_x_w3_y_w1 : 0 ≤ x_w3 * y_w1 := mul_nonneg l_x_w3 l_y_w1
  have u_x_w3_y_w1 : x_w3 * y_w1 ≤ 340282366920938463426481119284349108225 := prod_le l_y_w1 u_x_w3 u_y_w1
  have l_x_w3_y_w2 : 0 ≤ x_w3 * y_w2 := mul_nonneg l_x_w3 l_y_w2
  have u_x_w3_y_w2 : x_w3 * y_w2 ≤ 340282366920938463426481119284349108225 := prod_le l_y_w2 u_x_w3 u_y_w2
  have l_x_w3_y_w3 : 0 ≤ x_w3 * y_w3 := mul_nonneg l_x_w3 l_y_w3
  have u_x_w3_y_w3 : x_w3 * y_w3 ≤ 340282366920938463426481119284349108225 := prod_le l_y_w3 u_x_w3 u_y_w3
  have l_x_w4_y_w0 : 0 ≤ x_w4 * y_w0 := mul_nonneg l_x_w4 l_y_w0
  have u_x_w4_y_w0 : x_w4 * y_w0 ≤ 340282366920938463426481119284349108225 := prod_le l_y_w0 u_x_w4 u_y_w0
  have l_x_w4_y_w1 : 0 ≤ x_w4 * y_w1 := mul_nonneg l_x_w4 l_y_w1
  have u_x_w4_y_w1 : x_w4 * y_w1 ≤ 340282366920938463426481119284349108225 := prod_le l_y_w1 u_x_w4 u_y_w1
  have l_x_w4_y_w2 : 0 ≤ x_w4 * y_w2 := mul_nonneg l_x_w4 l_y_w2
  have u_x_w4_y_w2 : x_w4 * y_w2 ≤ 340282366920938463426481119284349108225 := prod_le l_y_w2 u_x_w4 u_y_w2
  have l_x_w4_y_w3 : 0 ≤ x_w4 * y_w3 := mul_nonneg l_x_w4 l_y_w3
  have u_x_w4_y_w3 : x_w4 * y_w3 ≤ 340282366920938463426481119284349108225 := prod_le l_y_w3 u_x_w4 u_y_w3
  have z_s10 : s10c = 0 := by
    have e : 39402006196394479212279040100143613805079739270465446667948293404245721771497210611414266254884915640806627990306816 * s10c + 2135987035920910082395021706169552114602704522356652769947041607822219725780640550022962086936576 * s10v + 115792089237316195423570985008687907853269984665640564039457584007913129639936 * s9v + 6277101735386680763835789423207666416102355444464034512896 * s8v + 340282366920938463463374607431768211456 * s6v + 18446744073709551616 * s5v + 1 * p1l = 6277101735386680763835789423207666416102355444464034512896 * (x_w3 * y_w0) + 18446744073709551616 * (x_w1 * y_w0) + 115792089237316195423570985008687907853269984665640564039457584007913129639936 * (x_w4 * y_w0) + 340282366920938463463374607431768211456 * (x_w2 * y_w0) + 1 * (x_w0 * y_w0) := by
      linear_combination 2135987035920910082395021706169552114602704522356652769947041607822219725780640550022962086936576 * e_s10 + 115792089237316195423570985008687907853269984665640564039457584007913129639936 * e_s9 + 6277101735386680763835789423207666416102355444464034512896 * e_s8 + 6277101735386680763835789423207666416102355444464034512896 * e_p7 + 340282366920938463463374607431768211456 * e_s6 + 18446744073709551616 * e_s5 + 18446744073709551616 * e_p4 + 115792089237316195423570985008687907853269984665640564039457584007913129639936 * e_p3 + 340282366920938463463374607431768211456 * e_p2 + 1 * e_p1
    have : s10c < 1 := by linarith only [e, l_s10c, l_s10v, l_s9v, l_s8v, l_s6v, l_s5v, l_p1l, u_x_w3_y_w0, u_x_w1_y_w0, u_x_w4_y_w0, u_x_w2_y_w0, u_x_w0_y_w0]
    omega
  have z_s19 : s19c = 0 := by
    have e : 726838724295606890549323807888004534353641360687318060281490199180639288113397923326191050713763565560762521606266177933534601628614656 * s19c + 39402006196394479212279040100143613805079739270465446667948293404245721771497210611414266254884915640806627990306816 * s19v + 2135987035920910082395021706169552114602704522356652769947041607822219725780640550022962086936576 * s18v + 115792089237316195423570985008687907853269984665640564039457584007913129639936 * s16v + 6277101735386680763835789423207666416102355444464034512896 * s15v + 340282366920938463463374607431768211456 * s13v + 18446744073709551616 * s12v + 1 * p1l = 2135987035920910082395021706169552114602704522356652769947041607822219725780640550022962086936576 * (x_w4 * y_w1) + 6277101735386680763835789423207666416102355444464034512896 * (x_w2 * y_w1) + 18446744073709551616 * (x_w0 * y_w1) + 6277101735386680763835789423207666416102355444464034512896 * (x_w3 * y_w0) + 18446744073709551616 * (x_w1 * y_w0) + 115792089237316195423570985008687907853269984665640564039457584007913129639936 * (x_w4 * y_w0) + 340282366920938463463374607431768211456 * (x_w2 * y_w0) + 1 * (x_w0 * y_w0) := by
      linear_combination 39402006196394479212279040100143613805079739270465446667948293404245721771497210611414266254884915640806627990306816 * e_s19 + 2135987035920910082395021706169552114602704522356652769947041607822219725780640550022962086936576 * e_s18 + 2135987035920910082395021706169552114602704522356652769947041607822219725780640550022962086936576 * e_p17 + 115792089237316195423570985008687907853269984665640564039457584007913129639936 * e_s16 + 6277101735386680763835789423207666416102355444464034512896 * e_s15 + 6277101735386680763835789423207666416102355444464034512896 * e_p14 + 340282366920938463463374607431768211456 * e_s13 + 18446744073709551616 * e_s12 + 18446744073709551616 * e_p11 + 2135987035920910082395021706169552114602704522356652769947041607822219725780640550022962086936576 * e_s10 + 115792089237316195423570985008687907853269984665640564039457584007913129639936 * e_s9 + 6277101735386680763835789423207666416102355444464034512896 * e_s8 + 6277101735386680763835789423207666416102355444464034512896 * e_p7 + 340282366920938463463374607431768211456 * e_s6 + 18446744073709551616 * e_s5 + 18446744073709551616 * e_p4 + 115792089237316195423570985008687907853269984665640564039457584007913129639936 * e_p3 + 340282366920938463463374607431768211456 * e_p2 + 1 * e_p1 + -39402006196394479212279040100143613805079739270465446667948293404245721771497210611414266254884915640806627990306816 * z_s10
    have : s19c < 1 := by linarith only [e, l_s19c, l_s19v, l_s18v, l_s16v, l_s15v, l_s13v, l_s12v, l_p1l, u_x_w4_y_w1, u_x_w2_y_w1, u_x_w0_y_w1, u_x_w3_y_w0, u_x_w1_y_w0, u_x_w4_y_w0, u_x_w2_y_w0, u_x_w0_y_w0]
    omega
  have z_s26 : s26c = 0 := by
    have e : 726838724295606890549323807888004534353641360687318060281490199180639288113397923326191050713763565560762521606266177933534601628614656 * s26c + 39402006196394479212279040100143613805079739270465446667948293404245721771497210611414266254884915640806627990306816 * s26v + 2135987035920910082395021706169552114602704522356652769947041607822219725780640550022962086936576 * s25v + 115792089237316195423570985008687907853269984665640564039457584007913129639936 * s24v + 6277101735386680763835789423207666416102355444464034512896 * s22v + 340282366920938463463374607431768211456 * s21v + 18446744073709551616 * s12v + 1 * p1l = 115792089237316195423570985008687907853269984665640564039457584007913129639936 * (x_w3 * y_w1) + 340282366920938463463374607431768211456 * (x_w1 * y_w1) + 2135987035920910082395021706169552114602704522356652769947041607822219725780640550022962086936576 * (x_w4 * y_w1) + 6277101735386680763835789423207666416102355444464034512896 * (x_w2 * y_w1) + 18446744073709551616 * (x_w0 * y_w1) + 6277101735386680763835789423207666416102355444464034512896 * (x_w3 * y_w0) + 18446744073709551616 * (x_w1 * y_w0) + 115792089237316195423570985008687907853269984665640564039457584007913129639936 * (x_w4 * y_w0) + 340282366920938463463374607431768211456 * (x_w2 * y_w0) + 1 * (x_w0 * y_w0) := by
      linear_combination 39402006196394479212279040100143613805079739270465446667948293404245721771497210611414266254884915640806627990306816 * e_s26 + 2135987035920910082395021706169552114602704522356652769947041607822219725780640550022962086936576 * e_s25 + 115792089237316195423570985008687907853269984665640564039457584007913129639936 * e_s24 + 115792089237316195423570985008687907853269984665640564039457584007913129639936 * e_p23 + 6277101735386680763835789423207666416102355444464034512896 * e_s22 + 340282366920938463463374607431768211456 * e_s21 + 340282366920938463463374607431768211456 * e_p20 + 39402006196394479212279040100143613805079739270465446667948293404245721771497210611414266254884915640806627990306816 * e_s19 + 2135987035920910082395021706169552114602704522356652769947041607822219725780640550022962086936576 * e_s18 + 2135987035920910082395021706169552114602704522356652769947041607822219725780640550022962086936576 * e_p17 + 115792089237316195423570985008687907853269984665640564039457584007913129639936 * e_s16 + 6277101735386680763835789423207666416102355444464034512896 * e_s15 + 6277101735386680763835789423207666416102355444464034512896 * e_p14 + 340282366920938463463374607431768211456 * e_s13 + 18446744073709551616 * e_s12 + 18446744073709551616 * e_p11 + 2135987035920910082395021706169552114602704522356652769947041607822219725780640550022962086936576 * e_s10 + 115792089237316195423570985008687907853269984665640564039457584007913129639936 * e_s9 + 6277101735386680763835789423207666416102355444464034512896 * e_s8 + 6277101735386680763835789423207666416102355444464034512896 * e_p7 + 340282366920938463463374607431768211456 * e_s6 + 18446744073709551616 * e_s5 + 18446744073709551616 * e_p4 + 115792089237316195423570985008687907853269984665640564039457584007913129639936 * e_p3 + 340282366920938463463374607431768211456 * e_p2 + 1 * e_p1 + -726838724295606890549323807888004534353641360687318060281490199180639288113397923326191050713763565560762521606266177933534601628614656 * z_s19 + -39402006196394479212279040100143613805079739270465446667948293404245721771497210611414266254884915640806627990306816 * z_s10
    have : s26c < 1 := by linarith only [e, l_s26c, l_s26v, l_s25v, l_s24v, l_s22v, l_s21v, l_s12v, l_p1l, u_x_w3_y_w1, u_x_w1_y_w1, u_x_w4_y_w1, u_x_w2_y_w1, u_x_w0_y_w1, u_x_w3_y_w0, u_x_w1_y_w0, u_x_w4_y_w0, u_x_w2_y_w0, u_x_w0_y_w0]
    omega
  have z_s35 : s35c = 0 := by
    have e : 13407807929942597099574024998205846127479365820592393377723561443721764030073546976801874298166903427690031858186486050853753882811946569946433649006084096 * s35c + 726838724295606890549323807888004534353641360687318060281490199180639288113397923326191050713763565560762521606266177933534601628614656 * s35v + 39402006196394479212279040100143613805079739270465446667948293404245721771497210611414266254884915640806627990306816 * s34v + 2135987035920910082395021706169552114602704522356652769947041607822219725780640550022962086936576 * s32v + 115792089237316195423570985008687907853269984665640564039457584007913129639936 * s31v + 6277101735386680763835789423207666416102355444464034512896 * s29v + 340282366920938463463374607431768211456 * s28v + 18446744073709551616 * s12v + 1 * p1l = 39402006196394479212279040100143613805079739270465446667948293404245721771497210611414266254884915640806627990306816 * (x_w4 * y_w2) + 115792089237316195423570985008687907853269984665640564039457584007913129639936 * (x_w2 * y_w2) + 340282366920938463463374607431768211456 * (x_w0 * y_w2) + 115792089237316195423570985008687907853269984665640564039457584007913129639936 * (x_w3 * y_w1) + 340282366920938463463374607431768211456 * (x_w1 * y_w1) + 2135987035920910082395021706169552114602704522356652769947041607822219725780640550022962086936576 * (x_w4 * y_w1) + 6277101735386680763835789423207666416102355444464034512896 * (x_w2 * y_w1) + 18446744073709551616 * (x_w0 * y_w1) + 6277101735386680763835789423207666416102355444464034512896 * (x_w3 * y_w0) + 18446744073709551616 * (x_w1 * y_w0) + 115792089237316195423570985008687907853269984665640564039457584007913129639936 * (x_w4 * y_w0) + 340282366920938463463374607431768211456 * (x_w2 * y_w0) + 1 * (x_w0 * y_w0) := by
      linear_combination 726838724295606890549323807888004534353641360687318060281490199180639288113397923326191050713763565560762521606266177933534601628614656 * e_s35 + 39402006196394479212279040100143613805079739270465446667948293404245721771497210611414266254884915640806627990306816 * e_s34 + 39402006196394479212279040100143613805079739270465446667948293404245721771497210611414266254884915640806627990306816 * e_p33 + 2135987035920910082395021706169552114602704522356652769947041607822219725780640550022962086936576 * e_s32 + 115792089237316195423570985008687907853269984665640564039457584007913129639936 * e_s31 + 115792089237316195423570985008687907853269984665640564039457584007913129639936 * e_p30 + 6277101735386680763835789423207666416102355444464034512896 * e_s29 + 340282366920938463463374607431768211456 * e_s28 + 340282366920938463463374607431768211456 * e_p27 + 39402006196394479212279040100143613805079739270465446667948293404245721771497210611414266254884915640806627990306816 * e_s26 + 2135987035920910082395021706169552114602704522356652769947041607822219725780640550022962086936576 * e_s25 + 115792089237316195423570985008687907853269984665640564039457584007913129639936 * e_s24 + 115792089237316195423570985008687907853269984665640564039457584007913129639936 * e_p23 + 6277101735386680763835789423207666416102355444464034512896 * e_s22 + 340282366920938463463374607431768211456 * e_s21 + 340282366920938463463374607431768211456 * e_p20 + 39402006196394479212279040100143613805079739270465446667948293404245721771497210611414266254884915640806627990306816 * e_s19 + 2135987035920910082395021706169552114602704522356652769947041607822219725780640550022962086936576 * e_s18 + 2135987035920910082395021706169552114602704522356652769947041607822219725780640550022962086936576 * e_p17 + 115792089237316195423570985008687907853269984665640564039457584007913129639936 * e_s16 + 6277101735386680763835789423207666416102355444464034512896 * e_s15 + 6277101735386680763835789423207666416102355444464034512896 * e_p14 + 340282366920938463463374607431768211456 * e_s13 + 18446744073709551616 * e_s12 + 18446744073709551616 * e_p11 + 2135987035920910082395021706169552114602704522356652769947041607822219725780640550022962086936576 * e_s10 + 115792089237316195423570985008687907853269984665640564039457584007913129639936 * e_s9 + 6277101735386680763835789423207666416102355444464034512896 * e_s8 + 6277101735386680763835789423207666416102355444464034512896 * e_p7 + 340282366920938463463374607431768211456 * e_s6 + 18446744073709551616 * e_s5 + 18446744073709551616 * e_p4 + 115792089237316195423570985008687907853269984665640564039457584007913129639936 * e_p3 + 340282366920938463463374607431768211456 * e_p2 + 1 * e_p1 + -726838724295606890549323807888004534353641360687318060281490199180639288113397923326191050713763565560762521606266177933534601628614656 * z_s26 + -726838724295606890549323807888004534353641360687318060281490199180639288113397923326191050713763565560762521606266177933534601628614656 * z_s19 + -39402006196394479212279040100143613805079739270465446667948293404245721771497210611414266254884915640806627990306816 * z_s10
    have : s35c < 1 := by linarith only [e, l_s35c, l_s35v, l_s34v, l_s32v, l_s31v, l_s29v, l_s28v, l_s12v, l_p1l, u_x_w4_y_w2, u_x_w2_y_w2, u_x_w0_y_w2, u_x_w3_y_w1, u_x_w1_y_w1, u_x_w4_y_w1, u_x_w2_y_w1, u_x_w0_y_w1, u_x_w3_y_w0, u_x_w1_y_w0, u_x_w4_y_w0, u_x_w2_y_w0, u_x_w0_y_w0]
    omega
  have z_s42 : s42c = 0 := by
    have e : 13407807929942597099574024998205846127479365820592393377723561443721764030073546976801874298166903427690031858186486050853753882811946569946433649006084096 * s42c + 726838724295606890549323807888004534353641360687318060281490199180639288113397923326191050713763565560762521606266177933534601628614656 * s42v + 39402006196394479212279040100143613805079739270465446667948293404245721771497210611414266254884915640806627990306816 * s41v + 2135987035920910082395021706169552114602704522356652769947041607822219725780640550022962086936576 * s40v + 115792089237316195423570985008687907853269984665640564039457584007913129639936 * s38v + 6277101735386680763835789423207666416102355444464034512896 * s37v + 340282366920938463463374607431768211456 * s28v + 18446744073709551616 * s12v + 1 * p1l = 2135987035920910082395021706169552114602704522356652769947041607822219725780640550022962086936576 * (x_w3 * y_w2) + 6277101735386680763835789423207666416102355444464034512896 * (x_w1 * y_w2) + 39402006196394479212279040100143613805079739270465446667948293404245721771497210611414266254884915640806627990306816 * (x_w4 * y_w2) + 115792089237316195423570985008687907853269984665640564039457584007913129639936 * (x_w2 * y_w2) + 340282366920938463463374607431768211456 * (x_w0 * y_w2) + 115792089237316195423570985008687907853269984665640564039457584007913129639936 * (x_w3 * y_w1) + 340282366920938463463374607431768211456 * (x_w1 * y_w1) + 2135987035920910082395021706169552114602704522356652769947041607822219725780640550022962086936576 * (x_w4 * y_w1) + 6277101735386680763835789423207666416102355444464034512896 * (x_w2 * y_w1) + 18446744073709551616 * (x_w0 * y_w1) + 6277101735386680763835789423207666416102355444464034512896 * (x_w3 * y_w0) + 18446744073709551616 * (x_w1 * y_w0) + 115792089237316195423570985008687907853269984665640564039457584007913129639936 * (x_w4 * y_w0) + 340282366920938463463374607431768211456 * (x_w2 * y_w0) + 1 * (x_w0 * y_w0) := by
      linear_combination 726838724295606890549323807888004534353641360687318060281490199180639288113397923326191050713763565560762521606266177933534601628614656 * e_s42 + 39402006196394479212279040100143613805079739270465446667948293404245721771497210611414266254884915640806627990306816 * e_s41 + 2135987035920910082395021706169552114602704522356652769947041607822219725780640550022962086936576 * e_s40 + 2135987035920910082395021706169552114602704522356652769947041607822219725780640550022962086936576 * e_p39 + 115792089237316195423570985008687907853269984665640564039457584007913129639936 * e_s38 + 6277101735386680763835789423207666416102355444464034512896 * e_s37 + 6277101735386680763835789423207666416102355444464034512896 * e_p36 + 726838724295606890549323807888004534353641360687318060281490199180639288113397923326191050713763565560762521606266177933534601628614656 * e_s35 + 39402006196394479212279040100143613805079739270465446667948293404245721771497210611414266254884915640806627990306816 * e_s34 + 39402006196394479212279040100143613805079739270465446667948293404245721771497210611414266254884915640806627990306816 * e_p33 + 2135987035920910082395021706169552114602704522356652769947041607822219725780640550022962086936576 * e_s32 + 115792089237316195423570985008687907853269984665640564039457584007913129639936 * e_s31 + 115792089237316195423570985008687907853269984665640564039457584007913129639936 * e_p30 + 6277101735386680763835789423207666416102355444464034512896 * e_s29 + 340282366920938463463374607431768211456 * e_s28 + 340282366920938463463374607431768211456 * e_p27 + 39402006196394479212279040100143613805079739270465446667948293404245721771497210611414266254884915640806627990306816 * e_s26 + 2135987035920910082395021706169552114602704522356652769947041607822219725780640550022962086936576 * e_s25 + 115792089237316195423570985008687907853269984665640564039457584007913129639936 * e_s24 + 115792089237316195423570985008687907853269984665640564039457584007913129639936 * e_p23 + 6277101735386680763835789423207666416102355444464034512896 * e_s22 + 340282366920938463463374607431768211456 * e_s21 + 340282366920938463463374607431768211456 * e_p20 + 39402006196394479212279040100143613805079739270465446667948293404245721771497210611414266254884915640806627990306816 * e_s19 + 2135987035920910082395021706169552114602704522356652769947041607822219725780640550022962086936576 * e_s18 + 2135987035920910082395021706169552114602704522356652769947041607822219725780640550022962086936576 * e_p17 + 115792089237316195423570985008687907853269984665640564039457584007913129639936 * e_s16 + 6277101735386680763835789423207666416102355444464034512896 * e_s15 + 6277101735386680763835789423207666416102355444464034512896 * e_p14 + 340282366920938463463374607431768211456 * e_s13 + 18446744073709551616 * e_s12 + 18446744073709551616 * e_p11 + 2135987035920910082395021706169552114602704522356652769947041607822219725780640550022962086936576 * e_s10 + 115792089237316195423570985008687907853269984665640564039457584007913129639936 * e_s9 + 6277101735386680763835789423207666416102355444464034512896 * e_s8 + 6277101735386680763835789423207666416102355444464034512896 * e_p7 + 340282366920938463463374607431768211456 * e_s6 + 18446744073709551616 * e_s5 + 18446744073709551616 * e_p4 + 115792089237316195423570985008687907853269984665640564039457584007913129639936 * e_p3 + 340282366920938463463374607431768211456 * e_p2 + 1 * e_p1 + -13407807929942597099574024998205846127479365820592393377723561443721764030073546976801874298166903427690031858186486050853753882811946569946433649006084096 * z_s35 + -726838724295606890549323807888004534353641360687318060281490199180639288113397923326191050713763565560762521606266177933534601628614656 * z_s26 + -726838724295606890549323807888004534353641360687318060281490199180639288113397923326191050713763565560762521606266177933534601628614656 * z_s19 + -39402006196394479212279040100143613805079739270465446667948293404245721771497210611414266254884915640806627990306816 * z_s10
    have : s42c < 1 := by linarith only [e, l_s42c, l_s42v, l_s41v, l_s40v, l_s38v, l_s37v, l_s28v, l_s12v, l_p1l, u_x_w3_y_w2, u_x_w1_y_w2, u_x_w4_y_w2, u_x_w2_y_w2, u_x_w0_y_w2, u_x_w3_y_w1, u_x_w1_y_w1, u_x_w4_y_w1, u_x_w2_y_w1, u_x_w0_y_w1, u_x_w3_y_w0, u_x_w1_y_w0, u_x_w4_y_w0, u_x_w2_y_w0, u_x_w0_y_w0]
    omega
  have z_s51 : s51c = 0 := by
    have e : 247330401473104534060502521019647190035131349101211839914063056092897225106531867170316401061243044989597671426016139339351365034306751209967546155101893167916606772148699136 * s51c + 13407807929942597099574024998205846127479365820592393377723561443721764030073546976801874298166903427690031858186486050853753882811946569946433649006084096 * s51v + 726838724295606890549323807888004534353641360687318060281490199180639288113397923326191050713763565560762521606266177933534601628614656 * s50v + 39402006196394479212279040100143613805079739270465446667948293404245721771497210611414266254884915640806627990306816 * s48v + 2135987035920910082395021706169552114602704522356652769947041607822219725780640550022962086936576 * s47v + 115792089237316195423570985008687907853269984665640564039457584007913129639936 * s45v + 6277101735386680763835789423207666416102355444464034512896 * s44v + 340282366920938463463374607431768211456 * s28v + 18446744073709551616 * s12v + 1 * p1l = 726838724295606890549323807888004534353641360687318060281490199180639288113397923326191050713763565560762521606266177933534601628614656 * (x_w4 * y_w3) + 2135987035920910082395021706169552114602704522356652769947041607822219725780640550022962086936576 * (x_w2 * y_w3) + 6277101735386680763835789423207666416102355444464034512896 * (x_w0 * y_w3) + 2135987035920910082395021706169552114602704522356652769947041607822219725780640550022962086936576 * (x_w3 * y_w2) + 6277101735386680763835789423207666416102355444464034512896 * (x_w1 * y_w2) + 39402006196394479212279040100143613805079739270465446667948293404245721771497210611414266254884915640806627990306816 * (x_w4 * y_w2) + 115792089237316195423570985008687907853269984665640564039457584007913129639936 * (x_w2 * y_w2) + 340282366920938463463374607431768211456 * (x_w0 * y_w2) + 115792089237316195423570985008687907853269984665640564039457584007913129639936 * (x_w3 * y_w1) + 340282366920938463463374607431768211456 * (x_w1 * y_w1) + 2135987035920910082395021706169552114602704522356652769947041607822219725780640550022962086936576 * (x_w4 * y_w1) + 6277101735386680763835789423207666416102355444464034512896 * (x_w2 * y_w1) + 18446744073709551616 * (x_w0 * y_w1) + 6277101735386680763835789423207666416102355444464034512896 * (x_w3 * y_w0) + 18446744073709551616 * (x_w1 * y_w0) + 115792089237316195423570985008687907853269984665640564039457584007913129639936 * (x_w4 * y_w0) + 340282366920938463463374607431768211456 * (x_w2 * y_w0) + 1 * (x_w0 * y_w0) := by
      linear_combination 13407807929942597099574024998205846127479365820592393377723561443721764030073546976801874298166903427690031858186486050853753882811946569946433649006084096 * e_s51 + 726838724295606890549323807888004534353641360687318060281490199180639288113397923326191050713763565560762521606266177933534601628614656 * e_s50 + 726838724295606890549323807888004534353641360687318060281490199180639288113397923326191050713763565560762521606266177933534601628614656 * e_p49 + 39402006196394479212279040100143613805079739270465446667948293404245721771497210611414266254884915640806627990306816 * e_s48 + 2135987035920910082395021706169552114602704522356652769947041607822219725780640550022962086936576 * e_s47 + 2135987035920910082395021706169552114602704522356652769947041607822219725780640550022962086936576 * e_p46 + 115792089237316195423570985008687907853269984665640564039457584007913129639936 * e_s45 + 6277101735386680763835789423207666416102355444464034512896 * e_s44 + 6277101735386680763835789423207666416102355444464034512896 * e_p43 + 726838724295606890549323807888004534353641360687318060281490199180639288113397923326191050713763565560762521606266177933534601628614656 * e_s42 + 39402006196394479212279040100143613805079739270465446667948293404245721771497210611414266254884915640806627990306816 * e_s41 + 2135987035920910082395021706169552114602704522356652769947041607822219725780640550022962086936576 * e_s40 + 2135987035920910082395021706169552114602704522356652769947041607822219725780640550022962086936576 * e_p39 + 115792089237316195423570985008687907853269984665640564039457584007913129639936 * e_s38 + 6277101735386680763835789423207666416102355444464034512896 * e_s37 + 6277101735386680763835789423207666416102355444464034512896 * e_p36 + 726838724295606890549323807888004534353641360687318060281490199180639288113397923326191050713763565560762521606266177933534601628614656 * e_s35 + 39402006196394479212279040100143613805079739270465446667948293404245721771497210611414266254884915640806627990306816 * e_s34 + 39402006196394479212279040100143613805079739270465446667948293404245721771497210611414266254884915640806627990306816 * e_p33 + 2135987035920910082395021706169552114602704522356652769947041607822219725780640550022962086936576 * e_s32 + 115792089237316195423570985008687907853269984665640564039457584007913129639936 * e_s31 + 115792089237316195423570985008687907853269984665640564039457584007913129639936 * e_p30 + 6277101735386680763835789423207666416102355444464034512896 * e_s29 + 340282366920938463463374607431768211456 * e_s28 + 340282366920938463463374607431768211456 * e_p27 + 39402006196394479212279040100143613805079739270465446667948293404245721771497210611414266254884915640806627990306816 * e_s26 + 2135987035920910082395021706169552114602704522356652769947041607822219725780640550022962086936576 * e_s25 + 115792089237316195423570985008687907853269984665640564039457584007913129639936 * e_s24 + 115792089237316195423570985008687907853269984665640564039457584007913129639936 * e_p23 + 6277101735386680763835789423207666416102355444464034512896 * e_s22 + 340282366920938463463374607431768211456 * e_s21 + 340282366920938463463374607431768211456 * e_p20 + 39402006196394479212279040100143613805079739270465446667948293404245721771497210611414266254884915640806627990306816 * e_s19 + 2135987035920910082395021706169552114602704522356652769947041607822219725780640550022962086936576 * e_s18 + 2135987035920910082395021706169552114602704522356652769947041607822219725780640550022962086936576 * e_p17 + 115792089237316195423570985008687907853269984665640564039457584007913129639936 * e_s16 + 6277101735386680763835789423207666416102355444464034512896 * e_s15 + 6277101735386680763835789423207666416102355444464034512896 * e_p14 + 340282366920938463463374607431768211456 * e_s13 + 18446744073709551616 * e_s12 + 18446744073709551616 * e_p11 + 2135987035920910082395021706169552114602704522356652769947041607822219725780640550022962086936576 * e_s10 + 115792089237316195423570985008687907853269984665640564039457584007913129639936 * e_s9 + 6277101735386680763835789423207666416102355444464034512896 * e_s8 + 6277101735386680763835789423207666416102355444464034512896 * e_p7 + 340282366920938463463374607431768211456 * e_s6 + 18446744073709551616 * e_s5 + 18446744073709551616 * e_p4 + 115792089237316195423570985008687907853269984665640564039457584007913129639936 * e_p3 + 340282366920938463463374607431768211456 * e_p2 + 1 * e_p1 + -13407807929942597099574024998205846127479365820592393377723561443721764030073546976801874298166903427690031858186486050853753882811946569946433649006084096 * z_s42 + -13407807929942597099574024998205846127479365820592393377723561443721764030073546976801874298166903427690031858186486050853753882811946569946433649006084096 * z_s35 + -726838724295606890549323807888004534353641360687318060281490199180639288113397923326191050713763565560762521606266177933534601628614656 * z_s26 + -726838724295606890549323807888004534353641360687318060281490199180639288113397923326191050713763565560762521606266177933534601628614656 * z_s19 + -39402006196394479212279040100143613805079739270465446667948293404245721771497210611414266254884915640806627990306816 * z_s10
    have : s51c < 1 := by linarith only [e, l_s51c, l_s51v, l_s50v, l_s48v, l_s47v, l_s45v, l_s44v, l_s28v, l_s12v, l_p1l, u_x_w4_y_w3, u_x_w2_y_w3, u_x_w0_y_w3, u_x_w3_y_w2, u_x_w1_y_w2, u_x_w4_y_w2, u_x_w2_y_w2, u_x_w0_y_w2, u_x_w3_y_w1, u_x_w1_y_w1, u_x_w4_y_w1, u_x_w2_y_w1, u_x_w0_y_w1, u_x_w3_y_w0, u_x_w1_y_w0, u_x_w4_y_w0, u_x_w2_y_w0, u_x_w0_y_w0]
    omega
  have z_s58 : s58c = 0 := by
    have e : 247330401473104534060502521019647190035131349101211839914063056092897225106531867170316401061243044989597671426016139339351365034306751209967546155101893167916606772148699136 * s58c + 13407807929942597099574024998205846127479365820592393377723561443721764030073546976801874298166903427690031858186486050853753882811946569946433649006084096 * s58v + 726838724295606890549323807888004534353641360687318060281490199180639288113397923326191050713763565560762521606266177933534601628614656 * s57v + 39402006196394479212279040100143613805079739270465446667948293404245721771497210611414266254884915640806627990306816 * s56v + 2135987035920910082395021706169552114602704522356652769947041607822219725780640550022962086936576 * s54v + 115792089237316195423570985008687907853269984665640564039457584007913129639936 * s53v + 6277101735386680763835789423207666416102355444464034512896 * s44v + 340282366920938463463374607431768211456 * s28v + 18446744073709551616 * s12v + 1 * p1l = 39402006196394479212279040100143613805079739270465446667948293404245721771497210611414266254884915640806627990306816 * (x_w3 * y_w3) + 115792089237316195423570985008687907853269984665640564039457584007913129639936 * (x_w1 * y_w3) + 726838724295606890549323807888004534353641360687318060281490199180639288113397923326191050713763565560762521606266177933534601628614656 * (x_w4 * y_w3) + 2135987035920910082395021706169552114602704522356652769947041607822219725780640550022962086936576 * (x_w2 * y_w3) + 6277101735386680763835789423207666416102355444464034512896 * (x_w0 * y_w3) + 2135987035920910082395021706169552114602704522356652769947041607822219725780640550022962086936576 * (x_w3 * y_w2) + 6277101735386680763835789423207666416102355444464034512896 * (x_w1 * y_w2) + 39402006196394479212279040100143613805079739270465446667948293404245721771497210611414266254884915640806627990306816 * (x_w4 * y_w2) + 115792089237316195423570985008687907853269984665640564039457584007913129639936 * (x_w2 * y_w2) + 340282366920938463463374607431768211456 * (x_w0 * y_w2) + 115792089237316195423570985008687907853269984665640564039457584007913129639936 * (x_w3 * y_w1) + 340282366920938463463374607431768211456 * (x_w1 * y_w1) + 2135987035920910082395021706169552114602704522356652769947041607822219725780640550022962086936576 * (x_w4 * y_w1) + 6277101735386680763835789423207666416102355444464034512896 * (x_w2 * y_w1) + 18446744073709551616 * (x_w0 * y_w1) + 6277101735386680763835789423207666416102355444464034512896 * (x_w3 * y_w0) + 18446744073709551616 * (x_w1 * y_w0) + 115792089237316195423570985008687907853269984665640564039457584007913129639936 * (x_w4 * y_w0) + 340282366920938463463374607431768211456 * (x_w2 * y_w0) + 1 * (x_w0 * y_w0) := by
      linear_combination 13407807929942597099574024998205846127479365820592393377723561443721764030073546976801874298166903427690031858186486050853753882811946569946433649006084096 * e_s58 + 726838724295606890549323807888004534353641360687318060281490199180639288113397923326191050713763565560762521606266177933534601628614656 * e_s57 + 39402006196394479212279040100143613805079739270465446667948293404245721771497210611414266254884915640806627990306816 * e_s56 + 39402006196394479212279040100143613805079739270465446667948293404245721771497210611414266254884915640806627990306816 * e_p55 + 2135987035920910082395021706169552114602704522356652769947041607822219725780640550022962086936576 * e_s54 + 115792089237316195423570985008687907853269984665640564039457584007913129639936 * e_s53 + 115792089237316195423570985008687907853269984665640564039457584007913129639936 * e_p52 + 13407807929942597099574024998205846127479365820592393377723561443721764030073546976801874298166903427690031858186486050853753882811946569946433649006084096 * e_s51 + 726838724295606890549323807888004534353641360687318060281490199180639288113397923326191050713763565560762521606266177933534601628614656 * e_s50 + 726838724295606890549323807888004534353641360687318060281490199180639288113397923326191050713763565560762521606266177933534601628614656 * e_p49 + 39402006196394479212279040100143613805079739270465446667948293404245721771497210611414266254884915640806627990306816 * e_s48 + 2135987035920910082395021706169552114602704522356652769947041607822219725780640550022962086936576 * e_s47 + 2135987035920910082395021706169552114602704522356652769947041607822219725780640550022962086936576 * e_p46 + 115792089237316195423570985008687907853269984665640564039457584007913129639936 * e_s45 + 6277101735386680763835789423207666416102355444464034512896 * e_s44 + 6277101735386680763835789423207666416102355444464034512896 * e_p43 + 726838724295606890549323807888004534353641360687318060281490199180639288113397923326191050713763565560762521606266177933534601628614656 * e_s42 + 39402006196394479212279040100143613805079739270465446667948293404245721771497210611414266254884915640806627990306816 * e_s41 + 2135987035920910082395021706169552114602704522356652769947041607822219725780640550022962086936576 * e_s40 + 2135987035920910082395021706169552114602704522356652769947041607822219725780640550022962086936576 * e_p39 + 115792089237316195423570985008687907853269984665640564039457584007913129639936 * e_s38 + 6277101735386680763835789423207666416102355444464034512896 * e_s37 + 6277101735386680763835789423207666416102355444464034512896 * e_p36 + 726838724295606890549323807888004534353641360687318060281490199180639288113397923326191050713763565560762521606266177933534601628614656 * e_s35 + 39402006196394479212279040100143613805079739270465446667948293404245721771497210611414266254884915640806627990306816 * e_s34 + 39402006196394479212279040100143613805079739270465446667948293404245721771497210611414266254884915640806627990306816 * e_p33 + 2135987035920910082395021706169552114602704522356652769947041607822219725780640550022962086936576 * e_s32 + 115792089237316195423570985008687907853269984665640564039457584007913129639936 * e_s31 + 115792089237316195423570985008687907853269984665640564039457584007913129639936 * e_p30 + 6277101735386680763835789423207666416102355444464034512896 * e_s29 + 340282366920938463463374607431768211456 * e_s28 + 340282366920938463463374607431768211456 * e_p27 + 39402006196394479212279040100143613805079739270465446667948293404245721771497210611414266254884915640806627990306816 * e_s26 + 2135987035920910082395021706169552114602704522356652769947041607822219725780640550022962086936576 * e_s25 + 115792089237316195423570985008687907853269984665640564039457584007913129639936 * e_s24 + 115792089237316195423570985008687907853269984665640564039457584007913129639936 * e_p23 + 6277101735386680763835789423207666416102355444464034512896 * e_s22 + 340282366920938463463374607431768211456 * e_s21 + 340282366920938463463374607431768211456 * e_p20 + 39402006196394479212279040100143613805079739270465446667948293404245721771497210611414266254884915640806627990306816 * e_s19 + 2135987035920910082395021706169552114602704522356652769947041607822219725780640550022962086936576 * e_s18 + 2135987035920910082395021706169552114602704522356652769947041607822219725780640550022962086936576 * e_p17 + 115792089237316195423570985008687907853269984665640564039457584007913129639936 * e_s16 + 6277101735386680763835789423207666416102355444464034512896 * e_s15 + 6277101735386680763835789423207666416102355444464034512896 * e_p14 + 340282366920938463463374607431768211456 * e_s13 + 18446744073709551616 * e_s12 + 18446744073709551616 * e_p11 + 2135987035920910082395021706169552114602704522356652769947041607822219725780640550022962086936576 * e_s10 + 115792089237316195423570985008687907853269984665640564039457584007913129639936 * e_s9 + 6277101735386680763835789423207666416102355444464034512896 * e_s8 + 6277101735386680763835789423207666416102355444464034512896 * e_p7 + 340282366920938463463374607431768211456 * e_s6 + 18446744073709551616 * e_s5 + 18446744073709551616 * e_p4 + 115792089237316195423570985008687907853269984665640564039457584007913129639936 * e_p3 + 340282366920938463463374607431768211456 * e_p2 + 1 * e_p1 + -247330401473104534060502521019647190035131349101211839914063056092897225106531867170316401061243044989597671426016139339351365034306751209967546155101893167916606772148699136 * z_s51 + -13407807929942597099574024998205846127479365820592393377723561443721764030073546976801874298166903427690031858186486050853753882811946569946433649006084096 * z_s42 + -13407807929942597099574024998205846127479365820592393377723561443721764030073546976801874298166903427690031858186486050853753882811946569946433649006084096 * z_s35 + -726838724295606890549323807888004534353641360687318060281490199180639288113397923326191050713763565560762521606266177933534601628614656 * z_s26 + -726838724295606890549323807888004534353641360687318060281490199180639288113397923326191050713763565560762521606266177933534601628614656 * z_s19 + -39402006196394479212279040100143613805079739270465446667948293404245721771497210611414266254884915640806627990306816 * z_s10
    have : s58c < 1 := by linarith only [e, l_s58c, l_s58v, l_s57v, l_s56v, l_s54v, l_s53v, l_s44v, l_s28v, l_s12v, l_p1l, u_x_w3_y_w3, u_x_w1_y_w3, u_x_w4_y_w3, u_x_w2_y_w3, u_x_w0_y_w3, u_x_w3_y_w2, u_x_w1_y_w2, u_x_w4_y_w2, u_x_w2_y_w2, u_x_w0_y_w2, u_x_w3_y_w1, u_x_w1_y_w1, u_x_w4_y_w1, u_x_w2_y_w1, u_x_w0_y_w1, u_x_w3_y_w0, u_x_w1_y_w0, u_x_w4_y_w0, u_x_w2_y_w0, u_x_w0_y_w0]
    omega
  linear_combination 13407807929942597099574024998205846127479365820592393377723561443721764030073546976801874298166903427690031858186486050853753882811946569946433649006084096 * e_s58 + 726838724295606890549323807888004534353641360687318060281490199180639288113397923326191050713763565560762521606266177933534601628614656 * e_s57 + 39402006196394479212279040100143613805079739270465446667948293404245721771497210611414266254884915640806627990306816 * e_s56 + 39402006196394479212279040100143613805079739270465446667948293404245721771497210611414266254884915640806627990306816 * e_p55 + 2135987035920910082395021706169552114602704522356652769947041607822219725780640550022962086936576 * e_s54 + 115792089237316195423570985008687907853269984665640564039457584007913129639936 * e_s53 + 115792089237316195423570985008687907853269984665640564039457584007913129639936 * e_p52 + 13407807929942597099574024998205846127479365820592393377723561443721764030073546976801874298166903427690031858186486050853753882811946569946433649006084096 * e_s51 + 726838724295606890549323807888004534353641360687318060281490199180639288113397923326191050713763565560762521606266177933534601628614656 * e_s50 + 726838724295606890549323807888004534353641360687318060281490199180639288113397923326191050713763565560762521606266177933534601628614656 * e_p49 + 39402006196394479212279040100143613805079739270465446667948293404245721771497210611414266254884915640806627990306816 * e_s48 + 2135987035920910082395021706169552114602704522356652769947041607822219725780640550022962086936576 * e_s47 + 2135987035920910082395021706169552114602704522356652769947041607822219725780640550022962086936576 * e_p46 + 115792089237316195423570985008687907853269984665640564039457584007913129639936 * e_s45 + 6277101735386680763835789423207666416102355444464034512896 * e_s44 + 6277101735386680763835789423207666416102355444464034512896 * e_p43 + 726838724295606890549323807888004534353641360687318060281490199180639288113397923326191050713763565560762521606266177933534601628614656 * e_s42 + 39402006196394479212279040100143613805079739270465446667948293404245721771497210611414266254884915640806627990306816 * e_s41 + 2135987035920910082395021706169552114602704522356652769947041607822219725780640550022962086936576 * e_s40 + 2135987035920910082395021706169552114602704522356652769947041607822219725780640550022962086936576 * e_p39 + 115792089237316195423570985008687907853269984665640564039457584007913129639936 * e_s38 + 6277101735386680763835789423207666416102355444464034512896 * e_s37 + 6277101735386680763835789423207666416102355444464034512896 * e_p36 + 726838724295606890549323807888004534353641360687318060281490199180639288113397923326191050713763565560762521606266177933534601628614656 * e_s35 + 39402006196394479212279040100143613805079739270465446667948293404245721771497210611414266254884915640806627990306816 * e_s34 + 39402006196394479212279040100143613805079739270465446667948293404245721771497210611414266254884915640806627990306816 * e_p33 + 2135987035920910082395021706169552114602704522356652769947041607822219725780640550022962086936576 * e_s32 + 115792089237316195423570985008687907853269984665640564039457584007913129639936 * e_s31 + 115792089237316195423570985008687907853269984665640564039457584007913129639936 * e_p30 + 6277101735386680763835789423207666416102355444464034512896 * e_s29 + 340282366920938463463374607431768211456 * e_s28 + 340282366920938463463374607431768211456 * e_p27 + 39402006196394479212279040100143613805079739270465446667948293404245721771497210611414266254884915640806627990306816 * e_s26 + 2135987035920910082395021706169552114602704522356652769947041607822219725780640550022962086936576 * e_s25 + 115792089237316195423570985008687907853269984665640564039457584007913129639936 * e_s24 + 115792089237316195423570985008687907853269984665640564039457584007913129639936 * e_p23 + 6277101735386680763835789423207666416102355444464034512896 * e_s22 + 340282366920938463463374607431768211456 * e_s21 + 340282366920938463463374607431768211456 * e_p20 + 39402006196394479212279040100143613805079739270465446667948293404245721771497210611414266254884915640806627990306816 * e_s19 + 2135987035920910082395021706169552114602704522356652769947041607822219725780640550022962086936576 * e_s18 + 2135987035920910082395021706169552114602704522356652769947041607822219725780640550022962086936576 * e_p17 + 115792089237316195423570985008687907853269984665640564039457584007913129639936 * e_s16 + 6277101735386680763835789423207666416102355444464034512896 * e_s15 + 6277101735386680763835789423207666416102355444464034512896 * e_p14 + 340282366920938463463374607431768211456 * e_s13 + 18446744073709551616 * e_s12 + 18446744073709551616 * e_p11 + 2135987035920910082395021706169552114602704522356652769947041607822219725780640550022962086936576 * e_s10 + 115792089237316195423570985008687907853269984665640564039457584007913129639936 * e_s9 + 6277101735386680763835789423207666416102355444464034512896 * e_s8 + 6277101735386680763835789423207666416102355444464034512896 * e_p7 + 340282366920938463463374607431768211456 * e_s6 + 18446744073709551616 * e_s5 + 18446744073709551616 * e_p4 + 115792089237316195423570985008687907853269984665640564039457584007913129639936 * e_p3 + 340282366920938463463374607431768211456 * e_p2 + 1 * e_p1 + -247330401473104534060502521019647190035131349101211839914063056092897225106531867170316401061243044989597671426016139339351365034306751209967546155101893167916606772148699136 * z_s58 + -247330401473104534060502521019647190035131349101211839914063056092897225106531867170316401061243044989597671426016139339351365034306751209967546155101893167916606772148699136 * z_s51 + -13407807929942597099574024998205846127479365820592393377723561443721764030073546976801874298166903427690031858186486050853753882811946569946433649006084096 * z_s42 + -13407807929942597099574024998205846127479365820592393377723561443721764030073546976801874298166903427690031858186486050853753882811946569946433649006084096 * z_s35 + -726838724295606890549323807888004534353641360687318060281490199180639288113397923326191050713763565560762521606266177933534601628614656 * z_s26 + -726838724295606890549323807888004534353641360687318060281490199180639288113397923326191050713763565560762521606266177933534601628614656 * z_s19 + -39402006196394479212279040100143613805079739270465446667948293404245721771497210611414266254884915640806627990306816 * z_s10

theorem recipMul5_spec (x : Words5) (y : U256) :
    ((recipMul5 x y).toNat : ℤ) = x.toNat * y.toNat := by
  unfold recipMul5
  extract_lets p1 p2 p3 p4 s5 s6 p7 s8 s9 s10 p11 s12 s13 p14 s15 s16 p17 s18 s19 p20 s21 s22 p23 s24 s25 s26 p27 s28 s29 p30 s31 s32 p33 s34 s35 p36 s37 s38 p39 s40 s41 s42 p43 s44 s45 p46 s47 s48 p49 s50 s51 p52 s53 s54 p55 s56 s57 s58
  have e_p1 : (p1.2.toNat : ℤ) + 18446744073709551616 * p1.1.toNat = x.w0.toNat * y.w0.toNat := mulZ _ _
  have e_p2 : (p2.2.toNat : ℤ) + 18446744073709551616 * p2.1.toNat = x.w2.toNat * y.w0.toNat := mulZ _ _
  have e_p3 : (p3.2.toNat : ℤ) + 18446744073709551616 * p3.1.toNat = x.w4.toNat * y.w0.toNat := mulZ _ _
  have e_p4 : (p4.2.toNat : ℤ) + 18446744073709551616 * p4.1.toNat = x.w1.toNat * y.w0.toNat := mulZ _ _
  have e_s5 : (s5.1.toNat : ℤ) + 18446744073709551616 * s5.2.toNat = p1.1.toNat + p4.2.toNat ∧ s5.2.toNat ≤ 1 := addZc _ _
  have e_s6 : (s6.1.toNat : ℤ) + 18446744073709551616 * s6.2.toNat = p2.2.toNat + p4.1.toNat + s5.2.toNat ∧ s6.2.toNat ≤ 1 := addZ _ _ _ e_s5.2
  have e_p7 : (p7.2.toNat : ℤ) + 18446744073709551616 * p7.1.toNat = x.w3.toNat * y.w0.toNat := mulZ _ _
  have e_s8 : (s8.1.toNat : ℤ) + 18446744073709551616 * s8.2.toNat = p2.1.toNat + p7.2.toNat + s6.2.toNat ∧ s8.2.toNat ≤ 1 := addZ _ _ _ e_s6.2
  have e_s9 : (s9.1.toNat : ℤ) + 18446744073709551616 * s9.2.toNat = p3.2.toNat + p7.1.toNat + s8.2.toNat ∧ s9.2.toNat ≤ 1 := addZ _ _ _ e_s8.2
  have e_s10 : (s10.1.toNat : ℤ) + 18446744073709551616 * s10.2.toNat = p3.1.toNat + s9.2.toNat ∧ s10.2.toNat ≤ 1 := addZ0 _ _ e_s9.2
  have e_p11 : (p11.2.toNat : ℤ) + 18446744073709551616 * p11.1.toNat = x.w0.toNat * y.w1.toNat := mulZ _ _
  have e_s12 : (s12.1.toNat : ℤ) + 18446744073709551616 * s12.2.toNat = s5.1.toNat + p11.2.toNat ∧ s12.2.toNat ≤ 1 := addZc _ _
  have e_s13 : (s13.1.toNat : ℤ) + 18446744073709551616 * s13.2.toNat = s6.1.toNat + p11.1.toNat + s12.2.toNat ∧ s13.2.toNat ≤ 1 := addZ _ _ _ e_s12.2
  have e_p14 : (p14.2.toNat : ℤ) + 18446744073709551616 * p14.1.toNat = x.w2.toNat * y.w1.toNat := mulZ _ _
  have e_s15 : (s15.1.toNat : ℤ) + 18446744073709551616 * s15.2.toNat = s8.1.toNat + p14.2.toNat + s13.2.toNat ∧ s15.2.toNat ≤ 1 := addZ _ _ _ e_s13.2
  have e_s16 : (s16.1.toNat : ℤ) + 18446744073709551616 * s16.2.toNat = s9.1.toNat + p14.1.toNat + s15.2.toNat ∧ s16.2.toNat ≤ 1 := addZ _ _ _ e_s15.2
  have e_p17 : (p17.2.toNat : ℤ) + 18446744073709551616 * p17.1.toNat = x.w4.toNat * y.w1.toNat := mulZ _ _
  have e_s18 : (s18.1.toNat : ℤ) + 18446744073709551616 * s18.2.toNat = s10.1.toNat + p17.2.toNat + s16.2.toNat ∧ s18.2.toNat ≤ 1 := addZ _ _ _ e_s16.2
  have e_s19 : (s19.1.toNat : ℤ) + 18446744073709551616 * s19.2.toNat = p17.1.toNat + s18.2.toNat ∧ s19.2.toNat ≤ 1 := addZ0 _ _ e_s18.2
  have e_p20 : (p20.2.toNat : ℤ) + 18446744073709551616 * p20.1.toNat = x.w1.toNat * y.w1.toNat := mulZ _ _
  have e_s21 : (s21.1.toNat : ℤ) + 18446744073709551616 * s21.2.toNat = s13.1.toNat + p20.2.toNat ∧ s21.2.toNat ≤ 1 := addZc _ _
  have e_s22 : (s22.1.toNat : ℤ) + 18446744073709551616 * s22.2.toNat = s15.1.toNat + p20.1.toNat + s21.2.toNat ∧ s22.2.toNat ≤ 1 := addZ _ _ _ e_s21.2
  have e_p23 : (p23.2.toNat : ℤ) + 18446744073709551616 * p23.1.toNat = x.w3.toNat * y.w1.toNat := mulZ _ _
  have e_s24 : (s24.1.toNat : ℤ) + 18446744073709551616 * s24.2.toNat = s16.1.toNat + p23.2.toNat + s22.2.toNat ∧ s24.2.toNat ≤ 1 := addZ _ _ _ e_s22.2
  have e_s25 : (s25.1.toNat : ℤ) + 18446744073709551616 * s25.2.toNat = s18.1.toNat + p23.1.toNat + s24.2.toNat ∧ s25.2.toNat ≤ 1 := addZ _ _ _ e_s24.2
  have e_s26 : (s26.1.toNat : ℤ) + 18446744073709551616 * s26.2.toNat = s19.1.toNat + s25.2.toNat ∧ s26.2.toNat ≤ 1 := addZ0 _ _ e_s25.2
  have e_p27 : (p27.2.toNat : ℤ) + 18446744073709551616 * p27.1.toNat = x.w0.toNat * y.w2.toNat := mulZ _ _
  have e_s28 : (s28.1.toNat : ℤ) + 18446744073709551616 * s28.2.toNat = s21.1.toNat + p27.2.toNat ∧ s28.2.toNat ≤ 1 := addZc _ _
  have e_s29 : (s29.1.toNat : ℤ) + 18446744073709551616 * s29.2.toNat = s22.1.toNat + p27.1.toNat + s28.2.toNat ∧ s29.2.toNat ≤ 1 := addZ _ _ _ e_s28.2
  have e_p30 : (p30.2.toNat : ℤ) + 18446744073709551616 * p30.1.toNat = x.w2.toNat * y.w2.toNat := mulZ _ _
  have e_s31 : (s31.1.toNat : ℤ) + 18446744073709551616 * s31.2.toNat = s24.1.toNat + p30.2.toNat + s29.2.toNat ∧ s31.2.toNat ≤ 1 := addZ _ _ _ e_s29.2
  have e_s32 : (s32.1.toNat : ℤ) + 18446744073709551616 * s32.2.toNat = s25.1.toNat + p30.1.toNat + s31.2.toNat ∧ s32.2.toNat ≤ 1 := addZ _ _ _ e_s31.2
  have e_p33 : (p33.2.toNat : ℤ) + 18446744073709551616 * p33.1.toNat = x.w4.toNat * y.w2.toNat := mulZ _ _
  have e_s34 : (s34.1.toNat : ℤ) + 18446744073709551616 * s34.2.toNat = s26.1.toNat + p33.2.toNat + s32.2.toNat ∧ s34.2.toNat ≤ 1 := addZ _ _ _ e_s32.2
  have e_s35 : (s35.1.toNat : ℤ) + 18446744073709551616 * s35.2.toNat = p33.1.toNat + s34.2.toNat ∧ s35.2.toNat ≤ 1 := addZ0 _ _ e_s34.2
  have e_p36 : (p36.2.toNat : ℤ) + 18446744073709551616 * p36.1.toNat = x.w1.toNat * y.w2.toNat := mulZ _ _
  have e_s37 : (s37.1.toNat : ℤ) + 18446744073709551616 * s37.2.toNat = s29.1.toNat + p36.2.toNat ∧ s37.2.toNat ≤ 1 := addZc _ _
  have e_s38 : (s38.1.toNat : ℤ) + 18446744073709551616 * s38.2.toNat = s31.1.toNat + p36.1.toNat + s37.2.toNat ∧ s38.2.toNat ≤ 1 := addZ _ _ _ e_s37.2
  have e_p39 : (p39.2.toNat : ℤ) + 18446744073709551616 * p39.1.toNat = x.w3.toNat * y.w2.toNat := mulZ _ _
  have e_s40 : (s40.1.toNat : ℤ) + 18446744073709551616 * s40.2.toNat = s32.1.toNat + p39.2.toNat + s38.2.toNat ∧ s40.2.toNat ≤ 1 := addZ _ _ _ e_s38.2
  have e_s41 : (s41.1.toNat : ℤ) + 18446744073709551616 * s41.2.toNat = s34.1.toNat + p39.1.toNat + s40.2.toNat ∧ s41.2.toNat ≤ 1 := addZ _ _ _ e_s40.2
  have e_s42 : (s42.1.toNat : ℤ) + 18446744073709551616 * s42.2.toNat = s35.1.toNat + s41.2.toNat ∧ s42.2.toNat ≤ 1 := addZ0 _ _ e_s41.2
  have e_p43 : (p43.2.toNat : ℤ) + 18446744073709551616 * p43.1.toNat = x.w0.toNat * y.w3.toNat := mulZ _ _
  have e_s44 : (s44.1.toNat : ℤ) + 18446744073709551616 * s44.2.toNat = s37.1.toNat + p43.2.toNat ∧ s44.2.toNat ≤ 1 := addZc _ _
  have e_s45 : (s45.1.toNat : ℤ) + 18446744073709551616 * s45.2.toNat = s38.1.toNat + p43.1.toNat + s44.2.toNat ∧ s45.2.toNat ≤ 1 := addZ _ _ _ e_s44.2
  have e_p46 : (p46.2.toNat : ℤ) + 18446744073709551616 * p46.1.toNat = x.w2.toNat * y.w3.toNat := mulZ _ _
  have e_s47 : (s47.1.toNat : ℤ) + 18446744073709551616 * s47.2.toNat = s40.1.toNat + p46.2.toNat + s45.2.toNat ∧ s47.2.toNat ≤ 1 := addZ _ _ _ e_s45.2
  have e_s48 : (s48.1.toNat : ℤ) + 18446744073709551616 * s48.2.toNat = s41.1.toNat + p46.1.toNat + s47.2.toNat ∧ s48.2.toNat ≤ 1 := addZ _ _ _ e_s47.2
  have e_p49 : (p49.2.toNat : ℤ) + 18446744073709551616 * p49.1.toNat = x.w4.toNat * y.w3.toNat := mulZ _ _
  have e_s50 : (s50.1.toNat : ℤ) + 18446744073709551616 * s50.2.toNat = s42.1.toNat + p49.2.toNat + s48.2.toNat ∧ s50.2.toNat ≤ 1 := addZ _ _ _ e_s48.2
  have e_s51 : (s51.1.toNat : ℤ) + 18446744073709551616 * s51.2.toNat = p49.1.toNat + s50.2.toNat ∧ s51.2.toNat ≤ 1 := addZ0 _ _ e_s50.2
  have e_p52 : (p52.2.toNat : ℤ) + 18446744073709551616 * p52.1.toNat = x.w1.toNat * y.w3.toNat := mulZ _ _
  have e_s53 : (s53.1.toNat : ℤ) + 18446744073709551616 * s53.2.toNat = s45.1.toNat + p52.2.toNat ∧ s53.2.toNat ≤ 1 := addZc _ _
  have e_s54 : (s54.1.toNat : ℤ) + 18446744073709551616 * s54.2.toNat = s47.1.toNat + p52.1.toNat + s53.2.toNat ∧ s54.2.toNat ≤ 1 := addZ _ _ _ e_s53.2
  have e_p55 : (p55.2.toNat : ℤ) + 18446744073709551616 * p55.1.toNat = x.w3.toNat * y.w3.toNat := mulZ _ _
  have e_s56 : (s56.1.toNat : ℤ) + 18446744073709551616 * s56.2.toNat = s48.1.toNat + p55.2.toNat + s54.2.toNat ∧ s56.2.toNat ≤ 1 := addZ _ _ _ e_s54.2
  have e_s57 : (s57.1.toNat : ℤ) + 18446744073709551616 * s57.2.toNat = s50.1.toNat + p55.1.toNat + s56.2.toNat ∧ s57.2.toNat ≤ 1 := addZ _ _ _ e_s56.2
  have e_s58 : (s58.1.toNat : ℤ) + 18446744073709551616 * s58.2.toNat = s51.1.toNat + s57.2.toNat ∧ s58.2.toNat ≤ 1 := addZ0 _ _ e_s57.2
  clear_value p1 p2 p3 p4 s5 s6 p7 s8 s9 s10 p11 s12 s13 p14 s15 s16 p17 s18 s19 p20 s21 s22 p23 s24 s25 s26 p27 s28 s29 p30 s31 s32 p33 s34 s35 p36 s37 s38 p39 s40 s41 s42 p43 s44 s45 p46 s47 s48 p49 s50 s51 p52 s53 s54 p55 s56 s57 s58
  have h := recipMul5_core wL wU wL wU wL wU wL wU wL wU wL wU wL wU wL wU wL wU e_p1 wL e_p2 e_p3 e_p4 e_s5.1 wL e_s6.1 wL e_p7 e_s8.1 wL e_s9.1 wL e_s10.1 wL wL e_p11 e_s12.1 wL e_s13.1 wL e_p14 e_s15.1 wL e_s16.1 wL e_p17 e_s18.1 wL e_s19.1 wL wL e_p20 e_s21.1 wL e_s22.1 wL e_p23 e_s24.1 wL e_s25.1 wL e_s26.1 wL wL e_p27 e_s28.1 wL e_s29.1 wL e_p30 e_s31.1 wL e_s32.1 wL e_p33 e_s34.1 wL e_s35.1 wL wL e_p36 e_s37.1 wL e_s38.1 wL e_p39 e_s40.1 wL e_s41.1 wL e_s42.1 wL wL e_p43 e_s44.1 wL e_s45.1 wL e_p46 e_s47.1 wL e_s48.1 wL e_p49 e_s50.1 wL e_s51.1 wL wL e_p52 e_s53.1 wL e_s54.1 wL e_p55 e_s56.1 wL e_s57.1 wL e_s58.1 wL wL
  rw [Words9.toZ, Words5.toZ x, U256.toZ y]
  exact h

theorem barrettQ_core {mu_w0 mu_w1 mu_w2 mu_w3 mu_w4 x_w0 x_w1 x_w2 x_w3 x_w4 p1h p1l p2h p2l s3v s3c s4v s4c p5h p5l s6v s6c p7h p7l s8v s8c s9v s9c p10h p10l s11v s11c s12v s12c s13v s13c p14h p14l s15v s15c s16v s16c p17h p17l s18v s18c s19v s19c p20h p20l s21v s21c p22h p22l s23v s23c s24v s24c s25v s25c p26h p26l s27v s27c p28h p28l s29v s29c s30v s30c p31h p31l s32v s32c s33v s33c p34h p34l s35v s35c s36v s36c p37h p37l s38v s38c s39v s39c s40v s40c p41h p41l s42v s42c s43v s43c p44h p44l s45v s45c s46v s46c p47h p47l s48v s48c s49v s49c p50h p50l s51v s51c s52v s52c p53h p53l s54v s54c s55v s55c s56v s56c : ℤ}
    (l_mu_w0 : 0 ≤ mu_w0)
    (u_mu_w0 : mu_w0 ≤ 18446744073709551615)
    (l_mu_w1 : 0 ≤ mu_w1)
    (u_mu_w1 : mu_w1 ≤ 18446744073709551615)
    (l_mu_w2 : 0 ≤ mu_w2)
    (u_mu_w2 : mu_w2 ≤ 18446744073709551615)
    (l_mu_w3 : 0 ≤ mu_w3)
    (u_mu_w3 : mu_w3 ≤ 18446744073709551615)
    (l_mu_w4 : 0 ≤ mu_w4)
    (u_mu_w4 : mu_w4 ≤ 18446744073709551615)
    (l_x_w0 : 0 ≤ x_w0)
    (u_x_w0 : x_w0 ≤ 18446744073709551615)
    (l_x_w1 : 0 ≤ x_w1)
    (u_x_w1 : x_w1 ≤ 18446744073709551615)
    (l_x_w2 : 0 ≤ x_w2)
    (u_x_w2 : x_w2 ≤ 18446744073709551615)
    (l_x_w3 : 0 ≤ x_w3)
    (u_x_w3 : x_w3 ≤ 18446744073709551615)
    (l_x_w4 : 0 ≤ x_w4)
    (u_x_w4 : x_w4 ≤ 18446744073709551615)
    (e_p1 : p1l + 18446744073709551616 * p1h = x_w3 * mu_w0)
    (l_p1l : 0 ≤ p1l)
    (u_p1l : p1l ≤ 18446744073709551615)
    (e_p2 : p2l + 18446744073709551616 * p2h = x_w4 * mu_w0)
    (e_s3 : s3v + 18446744073709551616 * s3c = p1h + p2l)
    (l_s3v : 0 ≤ s3v)
    (e_s4 : s4v + 18446744073709551616 * s4c = p2h + s3c)
    (l_s4v : 0 ≤ s4v)
    (l_s4c : 0 ≤ s4c)
    (e_p5 : p5l + 18446744073709551616 * p5h = x_w2 * mu_w1)
    (l_p5l : 0 ≤ p5l)
    (u_p5l : p5l ≤ 18446744073709551615)
    (e_s6 : s6v + 18446744073709551616 * s6c = s3v + p5h)
    (l_s6v : 0 ≤ s6v)
    (e_p7 : p7l + 18446744073709551616 * p7h = x_w4 * mu_w1)
    (e_s8 : s8v + 18446744073709551616 * s8c = s4v + p7l + s6c)
    (l_s8v : 0 ≤ s8v)
    (e_s9 : s9v + 18446744073709551616 * s9c = p7h + s8c)
    (l_s9v : 0 ≤ s9v)
    (l_s9c : 0 ≤ s9c)
    (e_p10 : p10l + 18446744073709551616 * p10h = x_w3 * mu_w1)
    (e_s11 : s11v + 18446744073709551616 * s11c = s6v + p10l)
    (l_s11v : 0 ≤ s11v)
    (e_s12 : s12v + 18446744073709551616 * s12c = s8v + p10h + s11c)
    (l_s12v : 0 ≤ s12v)
    (e_s13 : s13v + 18446744073709551616 * s13c = s9v + s12c)
    (l_s13v : 0 ≤ s13v)
    (l_s13c : 0 ≤ s13c)
    (e_p14 : p14l + 18446744073709551616 * p14h = x_w2 * mu_w2)
    (e_s15 : s15v + 18446744073709551616 * s15c = s11v + p14l)
    (l_s15v : 0 ≤ s15v)
    (e_s16 : s16v + 18446744073709551616 * s16c = s12v + p14h + s15c)
    (l_s16v : 0 ≤ s16v)
    (e_p17 : p17l + 18446744073709551616 * p17h = x_w4 * mu_w2)
    (e_s18 : s18v + 18446744073709551616 * s18c = s13v + p17l + s16c)
    (l_s18v : 0 ≤ s18v)
    (e_s19 : s19v + 18446744073709551616 * s19c = p17h + s18c)
    (l_s19v : 0 ≤ s19v)
    (l_s19c : 0 ≤ s19c)
    (e_p20 : p20l + 18446744073709551616 * p20h = x_w1 * mu_w2)
    (l_p20l : 0 ≤ p20l)
    (u_p20l : p20l ≤ 18446744073709551615)
    (e_s21 : s21v + 18446744073709551616 * s21c = s15v + p20h)
    (l_s21v : 0 ≤ s21v)
    (e_p22 : p22l + 18446744073709551616 * p22h = x_w3 * mu_w2)
    (e_s23 : s23v + 18446744073709551616 * s23c = s16v + p22l + s21c)
    (l_s23v : 0 ≤ s23v)
    (e_s24 : s24v + 18446744073709551616 * s24c = s18v + p22h + s23c)
    (l_s24v : 0 ≤ s24v)
    (e_s25 : s25v + 18446744073709551616 * s25c = s19v + s24c)
    (l_s25v : 0 ≤ s25v)
    (l_s25c : 0 ≤ s25c)
    (e_p26 : p26l + 18446744073709551616 * p26h = x_w0 * mu_w3)
    (l_p26l : 0 ≤ p26l)
    (u_p26l : p26l ≤ 18446744073709551615)
    (e_s27 : s27v + 18446744073709551616 * s27c = s21v + p26h)
    (l_s27v : 0 ≤ s27v)
    (e_p28 : p28l + 18446744073709551616 * p28h = x_w2 * mu_w3)
    (e_s29 : s29v + 18446744073709551616 * s29c = s23v + p28l + s27c)
    (l_s29v : 0 ≤ s29v)
    (e_s30 : s30v + 18446744073709551616 * s30c = s24v + p28h + s29c)
    (l_s30v : 0 ≤ s30v)
    (e_p31 : p31l + 18446744073709551616 * p31h = x_w4 * mu_w3)
    (e_s32 : s32v + 18446744073709551616 * s32c = s25v + p31l + s30c)
    (l_s32v : 0 ≤ s32v)
    (e_s33 : s33v + 18446744073709551616 * s33c = p31h + s32c)
    (l_s33v : 0 ≤ s33v)
    (l_s33c : 0 ≤ s33c)
    (e_p34 : p34l + 18446744073709551616 * p34h = x_w1 * mu_w3)
    (e_s35 : s35v + 18446744073709551616 * s35c = s27v + p34l)
    (l_s35v : 0 ≤ s35v)
    (e_s36 : s36v + 18446744073709551616 * s36c = s29v + p34h + s35c)
    (l_s36v : 0 ≤ s36v)
    (e_p37 : p37l + 18446744073709551616 * p37h = x_w3 * mu_w3)
    (e_s38 : s38v + 18446744073709551616 * s38c = s30v + p37l + s36c)
    (l_s38v : 0 ≤ s38v)
    (e_s39 : s39v + 18446744073709551616 * s39c = s32v + p37h + s38c)
    (l_s39v : 0 ≤ s39v)
    (e_s40 : s40v + 18446744073709551616 * s40c = s33v + s39c)
    (l_s40v : 0 ≤ s40v)
    (l_s40c : 0 ≤ s40c)
    (e_p41 : p41l + 18446744073709551616 * p41h = x_w0 * mu_w4)
    (e_s42 : s42v + 18446744073709551616 * s42c = s35v + p41l)
    (l_s42v : 0 ≤ s42v)
    (u_s42v : s42v ≤ 18446744073709551615)
    (e_s43 : s43v + 18446744073709551616 * s43c = s36v + p41h + s42c)
    (l_s43v : 0 ≤ s43v)
    (e_p44 : p44l + 18446744073709551616 * p44h = x_w2 * mu_w4)
    (e_s45 : s45v + 18446744073709551616 * s45c = s38v + p44l + s43c)
    (l_s45v : 0 ≤ s45v)
    (e_s46 : s46v + 18446744073709551616 * s46c = s39v + p44h + s45c)
    (l_s46v : 0 ≤ s46v)
    (e_p47 : p47l + 18446744073709551616 * p47h = x_w4 * mu_w4)
    (e_s48 : s48v + 18446744073709551616 * s48c = s40v + p47l + s46c)
    (l_s48v : 0 ≤ s48v)
    (e_s49 : s49v + 18446744073709551616 * s49c = p47h + s48c)
    (l_s49v : 0 ≤ s49v)
    (l_s49c : 0 ≤ s49c)
    (e_p50 : p50l + 18446744073709551616 * p50h = x_w1 * mu_w4)
    (e_s51 : s51v + 18446744073709551616 * s51c = s43v + p50l)
    (l_s51v : 0 ≤ s51v)
    (e_s52 : s52v + 18446744073709551616 * s52c = s45v + p50h + s51c)
    (l_s52v : 0 ≤ s52v)
    (e_p53 : p53l + 18446744073709551616 * p53h = x_w3 * mu_w4)
    (e_s54 : s54v + 18446744073709551616 * s54c = s46v + p53l + s52c)
    (l_s54v : 0 ≤ s54v)
    (e_s55 : s55v + 18446744073709551616 * s55c = s48v + p53h + s54c)
    (l_s55v : 0 ≤ s55v)
    (e_s56 : s56v + 18446744073709551616 * s56c = s49v + s55c)
    (l_s56v : 0 ≤ s56v)
    (l_s56c : 0 ≤ s56c) :
    2135987035920910082395021706169552114602704522356652769947041607822219725780640550022962086936576 * (s51v + 18446744073709551616 * s52v + 340282366920938463463374607431768211456 * s54v + 6277101735386680763835789423207666416102355444464034512896 * s55v + 115792089237316195423570985008687907853269984665640564039457584007913129639936 * s56v) ≤ (x_w0 + 18446744073709551616 * x_w1 + 340282366920938463463374607431768211456 * x_w2 + 6277101735386680763835789423207666416102355444464034512896 * x_w3 + 115792089237316195423570985008687907853269984665640564039457584007913129639936 * x_w4) * (mu_w0 + 18446744073709551616 * mu_w1 + 340282366920938463463374607431768211456 * mu_w2 + 6277101735386680763835789423207666416102355444464034512896 * mu_w3 + 115792089237316195423570985008687907853269984665640564039457584007913129639936 * mu_w4) ∧ (x_w0 + 18446744073709551616 * x_w1 + 340282366920938463463374607431768211456 * x_w2 + 6277101735386680763835789423207666416102355444464034512896 * x_w3 + 115792089237316195423570985008687907853269984665640564039457584007913129639936 * x_w4) * (mu_w0 + 18446744073709551616 * mu_w1 + 340282366920938463463374607431768211456 * mu_w2 + 6277101735386680763835789423207666416102355444464034512896 * mu_w3 + 115792089237316195423570985008687907853269984665640564039457584007913129639936 * mu_w4) < 2135987035920910082395021706169552114602704522356652769947041607822219725780640550022962086936576 * (s51v + 18446744073709551616 * s52v + 340282366920938463463374607431768211456 * s54v + 6277101735386680763835789423207666416102355444464034512896 * s55v + 115792089237316195423570985008687907853269984665640564039457584007913129639936 * s56v + 2) := by
  have l_x_w0_mu_w0 : 0 ≤ x_w0 * mu_w0 := mul_nonneg l_x_w0 l_mu_w0
  have u_x_w0_mu_w0 : x_w0 * mu_w0 ≤ 340282366920938463426481119284349108225 := prod_le l_mu_w0 u_x_w0 u_mu_w0
  have l_x_w0_mu_w1 : 0 ≤ x_w0 * mu_w1 := mul_nonneg l_x_w0 l_mu_w1
  have u_x_w0_mu_w1 : x_w0 * mu_w1 ≤ 340282366920938463426481119284349108225 := prod_le l_mu_w1 u_x_w0 u_mu_w1
  have l_x_w0_mu_w2 : 0 ≤ x_w0 * mu_w2 := mul_nonneg l_x_w0 l_mu_w2
  have u_x_w0_mu_w2 : x_w0 * mu_w2 ≤ 340282366920938463426481119284349108225 := prod_le l_mu_w2 u_x_w0 u_mu_w2
  have l_x_w0_mu_w3 : 0 ≤ x_w0 * mu_w3 := mul_nonneg l_x_w0 l_mu_w3
  have u_x_w0_mu_w3 : x_w0 * mu_w3 ≤ 340282366920938463426481119284349108225 := prod_le l_mu_w3 u_x_w0 u_mu_w3
  have l_x_w0_mu_w4 : 0 ≤ x_w0 * mu_w4 := mul_nonneg l_x_w0 l_mu_w4
  have u_x_w0_mu_w4 : x_w0 * mu_w4 ≤ 340282366920938463426481119284349108225 := prod_le l_mu_w4 u_x_w0 u_mu_w4
  have l_x_w1_mu_w0 : 0 ≤ x_w1 * mu_w0 := mul_nonneg l_x_w1 l_mu_w0
  have u_x_w1_mu_w0 : x_w1 * mu_w0 ≤ 340282366920938463426481119284349108225 := prod_le l_mu_w0 u_x_w1 u_mu_w0
  have l_x_w1_mu_w1 : 0 ≤ x_w1 * mu_w1 := mul_nonneg l_x_w1 l_mu_w1
  have u_x_w1_mu_w1 : x_w1 * mu_w1 ≤ 340282366920938463426481119284349108225 := prod_le l_mu_w1 u_x_w1 u_mu_w1
  have l_x_w1_mu_w2 : 0 ≤ x_w1 * mu_w2 := mul_nonneg l_x_w1 l_mu_w2
  have u_x_w1_mu_w2 : x_w1 * mu_w2 ≤ 340282366920938463426481119284349108225 := prod_le l_mu_w2 u_x_w1 u_mu_w2
  have l_x_w1_mu_w3 : 0 ≤ x_w1 * mu_w3 := mul_nonneg l_x_w1 l_mu_w3
  have u_x_w1_mu_w3 : x_w1 * mu_w3 ≤ 340282366920938463426481119284349108225 := prod_le l_mu_w3 u_x_w1 u_mu_w3
  have l_x_w1_mu_w4 : 0 ≤ x_w1 * mu_w4 := mul_nonneg l_x_w1 l_mu_w4
  have u_x_w1_mu_w4 : x_w1 * mu_w4 ≤ 340282366920938463426481119284349108225 := prod_le l_mu_w4 u_x_w1 u_mu_w4
  have l_x_w2_mu_w0 : 0 ≤ x_w2 * mu_w0 := mul_nonneg l_x_w2 l_mu_w0
  have u_x_w2_mu_w0 : x_w2 * mu_w0 ≤ 340282366920938463426481119284349108225 := prod_le l_mu_w0 u_x_w2 u_mu_w0
  have l_x_w2_mu_w1 : 0 ≤ x_w2 * mu_w1 := mul_nonneg l_x_w2 l_mu_w1
  have u_x_w2_mu_w1 : x_w2 * mu_w1 ≤ 340282366920938463426481119284349108225 := prod_le l_mu_w1 u_x_w2 u_mu_w1
  have l_x_w2_mu_w2 : 0 ≤ x_w2 * mu_w2 := mul_nonneg l_x_w2 l_mu_w2
  have u_x_w2_mu_w2 : x_w2 * mu_w2 ≤ 340282366920938463426481119284349108225 := prod_le l_mu_w2 u_x_w2 u_mu_w2
  have l_x_w2_mu_w3 : 0 ≤ x_w2 * mu_w3 := mul_nonneg l_x_w2 l_mu_w3
  have u_x_w2_mu_w3 : x_w2 * mu_w3 ≤ 340282366920938463426481119284349108225 := prod_le l_mu_w3 u_x_w2 u_mu_w3
  have l_x_w2_mu_w4 : 0 ≤ x_w2 * mu_w4 := mul_nonneg l_x_w2 l_mu_w4
  have u_x_w2_mu_w4 : x_w2 * mu_w4 ≤ 340282366920938463426481119284349108225 := prod_le l_mu_w4 u_x_w2 u_mu_w4
  have l_x_w3_mu_w0 : 0 ≤ x_w3 * mu_w0 := mul_nonneg l_x_w3 l_mu_w0
  have u_x_w3_mu_w0 : x_w3 * mu_w0 ≤ 340282366920938463426481119284349108225 := prod_le l_mu_w0 u_x_w3 u_mu_w0
  have l_x_w3_mu_w1 : 0 ≤ x_w3 * mu_w1 := mul_nonneg l_x_w3 l_mu_w1
  have u_x_w3_mu_w1 : x_w3 * mu_w1 ≤ 340282366920938463426481119284349108225 := prod_le l_mu_w1 u_x_w3 u_mu_w1
  have l_x_w3_mu_w2 : 0 ≤ x_w3 * mu_w2 := mul_nonneg l_x_w3 l_mu_w2
  have u_x_w3_mu_w2 : x_w3 * mu_w2 ≤ 340282366920938463426481119284349108225 := prod_le l_mu_w2 u_x_w3 u_mu_w2
  have l_x_w3_mu_w3 : 0 ≤ x_w3 * mu_w3 := mul_nonneg l_x_w3 l_mu_w3
  have u_x_w3_mu_w3 : x_w3 * mu_w3 ≤ 340282366920938463426481119284349108225 := prod_le l_mu_w3 u_x_w3 u_mu_w3
  have l_x_w3_mu_w4 : 0 ≤ x_w3 * mu_w4 := mul_nonneg l_x_w3 l_mu_w4
  have u_x_w3_mu_w4 : x_w3 * mu_w4 ≤ 340282366920938463426481119284349108225 := prod_le l_mu_w4 u_x_w3 u_mu_w4
  have l_x_w4_mu_w0 : 0 ≤ x_w4 * mu_w0 := mul_nonneg l_x_w4 l_mu_w0
  have u_x_w4_mu_w0 : x_w4 * mu_w0 ≤ 340282366920938463426481119284349108225 := prod_le l_mu_w0 u_x_w4 u_mu_w0
  have l_x_w4_mu_w1 : 0 ≤ x_w4 * mu_w1 := mul_nonneg l_x_w4 l_mu_w1
  have u_x_w4_mu_w1 : x_w4 * mu_w1 ≤ 340282366920938463426481119284349108225 := prod_le l_mu_w1 u_x_w4 u_mu_w1
  have l_x_w4_mu_w2 : 0 ≤ x_w4 * mu_w2 := mul_nonneg l_x_w4 l_mu_w2
  have u_x_w4_mu_w2 : x_w4 * mu_w2 ≤ 340282366920938463426481119284349108225 := prod_le l_mu_w2 u_x_w4 u_mu_w2
  have l_x_w4_mu_w3 : 0 ≤ x_w4 * mu_w3 := mul_nonneg l_x_w4 l_mu_w3
  have u_x_w4_mu_w3 : x_w4 * mu_w3 ≤ 340282366920938463426481119284349108225 := prod_le l_mu_w3 u_x_w4 u_mu_w3
  have l_x_w4_mu_w4 : 0 ≤ x_w4 * mu_w4 := mul_nonneg l_x_w4 l_mu_w4
  have u_x_w4_mu_w4 : x_w4 * mu_w4 ≤ 340282366920938463426481119284349108225 := prod_le l_mu_w4 u_x_w4 u_mu_w4
  have z_s4 : s4c = 0 := by
    have e : 39402006196394479212279040100143613805079739270465446667948293404245721771497210611414266254884915640806627990306816 * s4c + 2135987035920910082395021706169552114602704522356652769947041607822219725780640550022962086936576 * s4v + 115792089237316195423570985008687907853269984665640564039457584007913129639936 * s3v + 6277101735386680763835789423207666416102355444464034512896 * p1l = 115792089237316195423570985008687907853269984665640564039457584007913129639936 * (x_w4 * mu_w0) + 6277101735386680763835789423207666416102355444464034512896 * (x_w3 * mu_w0) := by
      linear_combination 2135987035920910082395021706169552114602704522356652769947041607822219725780640550022962086936576 * e_s4 + 115792089237316195423570985008687907853269984665640564039457584007913129639936 * e_s3 + 115792089237316195423570985008687907853269984665640564039457584007913129639936 * e_p2 + 6277101735386680763835789423207666416102355444464034512896 * e_p1
    have : s4c < 1 := by linarith only [e, l_s4c, l_s4v, l_s3v, l_p1l, u_x_w4_mu_w0, u_x_w3_mu_w0]
    omega
  have z_s9 : s9c = 0 := by
    have e : 726838724295606890549323807888004534353641360687318060281490199180639288113397923326191050713763565560762521606266177933534601628614656 * s9c + 39402006196394479212279040100143613805079739270465446667948293404245721771497210611414266254884915640806627990306816 * s9v + 2135987035920910082395021706169552114602704522356652769947041607822219725780640550022962086936576 * s8v + 115792089237316195423570985008687907853269984665640564039457584007913129639936 * s6v + 6277101735386680763835789423207666416102355444464034512896 * p5l + 6277101735386680763835789423207666416102355444464034512896 * p1l = 2135987035920910082395021706169552114602704522356652769947041607822219725780640550022962086936576 * (x_w4 * mu_w1) + 6277101735386680763835789423207666416102355444464034512896 * (x_w2 * mu_w1) + 115792089237316195423570985008687907853269984665640564039457584007913129639936 * (x_w4 * mu_w0) + 6277101735386680763835789423207666416102355444464034512896 * (x_w3 * mu_w0) := by
      linear_combination 39402006196394479212279040100143613805079739270465446667948293404245721771497210611414266254884915640806627990306816 * e_s9 + 2135987035920910082395021706169552114602704522356652769947041607822219725780640550022962086936576 * e_s8 + 2135987035920910082395021706169552114602704522356652769947041607822219725780640550022962086936576 * e_p7 + 115792089237316195423570985008687907853269984665640564039457584007913129639936 * e_s6 + 6277101735386680763835789423207666416102355444464034512896 * e_p5 + 2135987035920910082395021706169552114602704522356652769947041607822219725780640550022962086936576 * e_s4 + 115792089237316195423570985008687907853269984665640564039457584007913129639936 * e_s3 + 115792089237316195423570985008687907853269984665640564039457584007913129639936 * e_p2 + 6277101735386680763835789423207666416102355444464034512896 * e_p1 + -39402006196394479212279040100143613805079739270465446667948293404245721771497210611414266254884915640806627990306816 * z_s4
    have : s9c < 1 := by linarith only [e, l_s9c, l_s9v, l_s8v, l_s6v, l_p5l, l_p1l, u_x_w4_mu_w1, u_x_w2_mu_w1, u_x_w4_mu_w0, u_x_w3_mu_w0]
    omega
  have z_s13 : s13c = 0 := by
    have e : 726838724295606890549323807888004534353641360687318060281490199180639288113397923326191050713763565560762521606266177933534601628614656 * s13c + 39402006196394479212279040100143613805079739270465446667948293404245721771497210611414266254884915640806627990306816 * s13v + 2135987035920910082395021706169552114602704522356652769947041607822219725780640550022962086936576 * s12v + 115792089237316195423570985008687907853269984665640564039457584007913129639936 * s11v + 6277101735386680763835789423207666416102355444464034512896 * p5l + 6277101735386680763835789423207666416102355444464034512896 * p1l = 115792089237316195423570985008687907853269984665640564039457584007913129639936 * (x_w3 * mu_w1) + 2135987035920910082395021706169552114602704522356652769947041607822219725780640550022962086936576 * (x_w4 * mu_w1) + 6277101735386680763835789423207666416102355444464034512896 * (x_w2 * mu_w1) + 115792089237316195423570985008687907853269984665640564039457584007913129639936 * (x_w4 * mu_w0) + 6277101735386680763835789423207666416102355444464034512896 * (x_w3 * mu_w0) := by
      linear_combination 39402006196394479212279040100143613805079739270465446667948293404245721771497210611414266254884915640806627990306816 * e_s13 + 2135987035920910082395021706169552114602704522356652769947041607822219725780640550022962086936576 * e_s12 + 115792089237316195423570985008687907853269984665640564039457584007913129639936 * e_s11 + 115792089237316195423570985008687907853269984665640564039457584007913129639936 * e_p10 + 39402006196394479212279040100143613805079739270465446667948293404245721771497210611414266254884915640806627990306816 * e_s9 + 2135987035920910082395021706169552114602704522356652769947041607822219725780640550022962086936576 * e_s8 + 2135987035920910082395021706169552114602704522356652769947041607822219725780640550022962086936576 * e_p7 + 115792089237316195423570985008687907853269984665640564039457584007913129639936 * e_s6 + 6277101735386680763835789423207666416102355444464034512896 * e_p5 + 2135987035920910082395021706169552114602704522356652769947041607822219725780640550022962086936576 * e_s4 + 115792089237316195423570985008687907853269984665640564039457584007913129639936 * e_s3 + 115792089237316195423570985008687907853269984665640564039457584007913129639936 * e_p2 + 6277101735386680763835789423207666416102355444464034512896 * e_p1 + -726838724295606890549323807888004534353641360687318060281490199180639288113397923326191050713763565560762521606266177933534601628614656 * z_s9 + -39402006196394479212279040100143613805079739270465446667948293404245721771497210611414266254884915640806627990306816 * z_s4
    have : s13c < 1 := by linarith only [e, l_s13c, l_s13v, l_s12v, l_s11v, l_p5l, l_p1l, u_x_w3_mu_w1, u_x_w4_mu_w1, u_x_w2_mu_w1, u_x_w4_mu_w0, u_x_w3_mu_w0]
    omega
  have z_s19 : s19c = 0 := by
    have e : 13407807929942597099574024998205846127479365820592393377723561443721764030073546976801874298166903427690031858186486050853753882811946569946433649006084096 * s19c + 726838724295606890549323807888004534353641360687318060281490199180639288113397923326191050713763565560762521606266177933534601628614656 * s19v + 39402006196394479212279040100143613805079739270465446667948293404245721771497210611414266254884915640806627990306816 * s18v + 2135987035920910082395021706169552114602704522356652769947041607822219725780640550022962086936576 * s16v + 115792089237316195423570985008687907853269984665640564039457584007913129639936 * s15v + 6277101735386680763835789423207666416102355444464034512896 * p5l + 6277101735386680763835789423207666416102355444464034512896 * p1l = 39402006196394479212279040100143613805079739270465446667948293404245721771497210611414266254884915640806627990306816 * (x_w4 * mu_w2) + 115792089237316195423570985008687907853269984665640564039457584007913129639936 * (x_w2 * mu_w2) + 115792089237316195423570985008687907853269984665640564039457584007913129639936 * (x_w3 * mu_w1) + 2135987035920910082395021706169552114602704522356652769947041607822219725780640550022962086936576 * (x_w4 * mu_w1) + 6277101735386680763835789423207666416102355444464034512896 * (x_w2 * mu_w1) + 115792089237316195423570985008687907853269984665640564039457584007913129639936 * (x_w4 * mu_w0) + 6277101735386680763835789423207666416102355444464034512896 * (x_w3 * mu_w0) := by
      linear_combination 726838724295606890549323807888004534353641360687318060281490199180639288113397923326191050713763565560762521606266177933534601628614656 * e_s19 + 39402006196394479212279040100143613805079739270465446667948293404245721771497210611414266254884915640806627990306816 * e_s18 + 39402006196394479212279040100143613805079739270465446667948293404245721771497210611414266254884915640806627990306816 * e_p17 + 2135987035920910082395021706169552114602704522356652769947041607822219725780640550022962086936576 * e_s16 + 115792089237316195423570985008687907853269984665640564039457584007913129639936 * e_s15 + 115792089237316195423570985008687907853269984665640564039457584007913129639936 * e_p14 + 39402006196394479212279040100143613805079739270465446667948293404245721771497210611414266254884915640806627990306816 * e_s13 + 2135987035920910082395021706169552114602704522356652769947041607822219725780640550022962086936576 * e_s12 + 115792089237316195423570985008687907853269984665640564039457584007913129639936 * e_s11 + 115792089237316195423570985008687907853269984665640564039457584007913129639936 * e_p10 + 39402006196394479212279040100143613805079739270465446667948293404245721771497210611414266254884915640806627990306816 * e_s9 + 2135987035920910082395021706169552114602704522356652769947041607822219725780640550022962086936576 * e_s8 + 2135987035920910082395021706169552114602704522356652769947041607822219725780640550022962086936576 * e_p7 + 115792089237316195423570985008687907853269984665640564039457584007913129639936 * e_s6 + 6277101735386680763835789423207666416102355444464034512896 * e_p5 + 2135987035920910082395021706169552114602704522356652769947041607822219725780640550022962086936576 * e_s4 + 115792089237316195423570985008687907853269984665640564039457584007913129639936 * e_s3 + 115792089237316195423570985008687907853269984665640564039457584007913129639936 * e_p2 + 6277101735386680763835789423207666416102355444464034512896 * e_p1 + -726838724295606890549323807888004534353641360687318060281490199180639288113397923326191050713763565560762521606266177933534601628614656 * z_s13 + -726838724295606890549323807888004534353641360687318060281490199180639288113397923326191050713763565560762521606266177933534601628614656 * z_s9 + -39402006196394479212279040100143613805079739270465446667948293404245721771497210611414266254884915640806627990306816 * z_s4
    have : s19c < 1 := by linarith only [e, l_s19c, l_s19v, l_s18v, l_s16v, l_s15v, l_p5l, l_p1l, u_x_w4_mu_w2, u_x_w2_mu_w2, u_x_w3_mu_w1, u_x_w4_mu_w1, u_x_w2_mu_w1, u_x_w4_mu_w0, u_x_w3_mu_w0]
    omega
  have z_s25 : s25c = 0 := by
    have e : 13407807929942597099574024998205846127479365820592393377723561443721764030073546976801874298166903427690031858186486050853753882811946569946433649006084096 * s25c + 726838724295606890549323807888004534353641360687318060281490199180639288113397923326191050713763565560762521606266177933534601628614656 * s25v + 39402006196394479212279040100143613805079739270465446667948293404245721771497210611414266254884915640806627990306816 * s24v + 2135987035920910082395021706169552114602704522356652769947041607822219725780640550022962086936576 * s23v + 115792089237316195423570985008687907853269984665640564039457584007913129639936 * s21v + 6277101735386680763835789423207666416102355444464034512896 * p20l + 6277101735386680763835789423207666416102355444464034512896 * p5l + 6277101735386680763835789423207666416102355444464034512896 * p1l = 2135987035920910082395021706169552114602704522356652769947041607822219725780640550022962086936576 * (x_w3 * mu_w2) + 6277101735386680763835789423207666416102355444464034512896 * (x_w1 * mu_w2) + 39402006196394479212279040100143613805079739270465446667948293404245721771497210611414266254884915640806627990306816 * (x_w4 * mu_w2) + 115792089237316195423570985008687907853269984665640564039457584007913129639936 * (x_w2 * mu_w2) + 115792089237316195423570985008687907853269984665640564039457584007913129639936 * (x_w3 * mu_w1) + 2135987035920910082395021706169552114602704522356652769947041607822219725780640550022962086936576 * (x_w4 * mu_w1) + 6277101735386680763835789423207666416102355444464034512896 * (x_w2 * mu_w1) + 115792089237316195423570985008687907853269984665640564039457584007913129639936 * (x_w4 * mu_w0) + 6277101735386680763835789423207666416102355444464034512896 * (x_w3 * mu_w0) := by
      linear_combination 726838724295606890549323807888004534353641360687318060281490199180639288113397923326191050713763565560762521606266177933534601628614656 * e_s25 + 39402006196394479212279040100143613805079739270465446667948293404245721771497210611414266254884915640806627990306816 * e_s24 + 2135987035920910082395021706169552114602704522356652769947041607822219725780640550022962086936576 * e_s23 + 2135987035920910082395021706169552114602704522356652769947041607822219725780640550022962086936576 * e_p22 + 115792089237316195423570985008687907853269984665640564039457584007913129639936 * e_s21 + 6277101735386680763835789423207666416102355444464034512896 * e_p20 + 726838724295606890549323807888004534353641360687318060281490199180639288113397923326191050713763565560762521606266177933534601628614656 * e_s19 + 39402006196394479212279040100143613805079739270465446667948293404245721771497210611414266254884915640806627990306816 * e_s18 + 39402006196394479212279040100143613805079739270465446667948293404245721771497210611414266254884915640806627990306816 * e_p17 + 2135987035920910082395021706169552114602704522356652769947041607822219725780640550022962086936576 * e_s16 + 115792089237316195423570985008687907853269984665640564039457584007913129639936 * e_s15 + 115792089237316195423570985008687907853269984665640564039457584007913129639936 * e_p14 + 39402006196394479212279040100143613805079739270465446667948293404245721771497210611414266254884915640806627990306816 * e_s13 + 2135987035920910082395021706169552114602704522356652769947041607822219725780640550022962086936576 * e_s12 + 115792089237316195423570985008687907853269984665640564039457584007913129639936 * e_s11 + 115792089237316195423570985008687907853269984665640564039457584007913129639936 * e_p10 + 39402006196394479212279040100143613805079739270465446667948293404245721771497210611414266254884915640806627990306816 * e_s9 + 2135987035920910082395021706169552114602704522356652769947041607822219725780640550022962086936576 * e_s8 + 2135987035920910082395021706169552114602704522356652769947041607822219725780640550022962086936576 * e_p7 + 115792089237316195423570985008687907853269984665640564039457584007913129639936 * e_s6 + 6277101735386680763835789423207666416102355444464034512896 * e_p5 + 2135987035920910082395021706169552114602704522356652769947041607822219725780640550022962086936576 * e_s4 + 115792089237316195423570985008687907853269984665640564039457584007913129639936 * e_s3 + 115792089237316195423570985008687907853269984665640564039457584007913129639936 * e_p2 + 6277101735386680763835789423207666416102355444464034512896 * e_p1 + -13407807929942597099574024998205846127479365820592393377723561443721764030073546976801874298166903427690031858186486050853753882811946569946433649006084096 * z_s19 + -726838724295606890549323807888004534353641360687318060281490199180639288113397923326191050713763565560762521606266177933534601628614656 * z_s13 + -726838724295606890549323807888004534353641360687318060281490199180639288113397923326191050713763565560762521606266177933534601628614656 * z_s9 + -39402006196394479212279040100143613805079739270465446667948293404245721771497210611414266254884915640806627990306816 * z_s4
    have : s25c < 1 := by linarith only [e, l_s25c, l_s25v, l_s24v, l_s23v, l_s21v, l_p20l, l_p5l, l_p1l, u_x_w3_mu_w2, u_x_w1_mu_w2, u_x_w4_mu_w2, u_x_w2_mu_w2, u_x_w3_mu_w1, u_x_w4_mu_w1, u_x_w2_mu_w1, u_x_w4_mu_w0, u_x_w3_mu_w0]
    omega
  have z_s33 : s33c = 0 := by
    have e : 247330401473104534060502521019647190035131349101211839914063056092897225106531867170316401061243044989597671426016139339351365034306751209967546155101893167916606772148699136 * s33c + 13407807929942597099574024998205846127479365820592393377723561443721764030073546976801874298166903427690031858186486050853753882811946569946433649006084096 * s33v + 726838724295606890549323807888004534353641360687318060281490199180639288113397923326191050713763565560762521606266177933534601628614656 * s32v + 39402006196394479212279040100143613805079739270465446667948293404245721771497210611414266254884915640806627990306816 * s30v + 2135987035920910082395021706169552114602704522356652769947041607822219725780640550022962086936576 * s29v + 115792089237316195423570985008687907853269984665640564039457584007913129639936 * s27v + 6277101735386680763835789423207666416102355444464034512896 * p26l + 6277101735386680763835789423207666416102355444464034512896 * p20l + 6277101735386680763835789423207666416102355444464034512896 * p5l + 6277101735386680763835789423207666416102355444464034512896 * p1l = 726838724295606890549323807888004534353641360687318060281490199180639288113397923326191050713763565560762521606266177933534601628614656 * (x_w4 * mu_w3) + 2135987035920910082395021706169552114602704522356652769947041607822219725780640550022962086936576 * (x_w2 * mu_w3) + 6277101735386680763835789423207666416102355444464034512896 * (x_w0 * mu_w3) + 2135987035920910082395021706169552114602704522356652769947041607822219725780640550022962086936576 * (x_w3 * mu_w2) + 6277101735386680763835789423207666416102355444464034512896 * (x_w1 * mu_w2) + 39402006196394479212279040100143613805079739270465446667948293404245721771497210611414266254884915640806627990306816 * (x_w4 * mu_w2) + 115792089237316195423570985008687907853269984665640564039457584007913129639936 * (x_w2 * mu_w2) + 115792089237316195423570985008687907853269984665640564039457584007913129639936 * (x_w3 * mu_w1) + 2135987035920910082395021706169552114602704522356652769947041607822219725780640550022962086936576 * (x_w4 * mu_w1) + 6277101735386680763835789423207666416102355444464034512896 * (x_w2 * mu_w1) + 115792089237316195423570985008687907853269984665640564039457584007913129639936 * (x_w4 * mu_w0) + 6277101735386680763835789423207666416102355444464034512896 * (x_w3 * mu_w0) := by
      linear_combination 13407807929942597099574024998205846127479365820592393377723561443721764030073546976801874298166903427690031858186486050853753882811946569946433649006084096 * e_s33 + 726838724295606890549323807888004534353641360687318060281490199180639288113397923326191050713763565560762521606266177933534601628614656 * e_s32 + 726838724295606890549323807888004534353641360687318060281490199180639288113397923326191050713763565560762521606266177933534601628614656 * e_p31 + 39402006196394479212279040100143613805079739270465446667948293404245721771497210611414266254884915640806627990306816 * e_s30 + 2135987035920910082395021706169552114602704522356652769947041607822219725780640550022962086936576 * e_s29 + 2135987035920910082395021706169552114602704522356652769947041607822219725780640550022962086936576 * e_p28 + 115792089237316195423570985008687907853269984665640564039457584007913129639936 * e_s27 + 6277101735386680763835789423207666416102355444464034512896 * e_p26 + 726838724295606890549323807888004534353641360687318060281490199180639288113397923326191050713763565560762521606266177933534601628614656 * e_s25 + 39402006196394479212279040100143613805079739270465446667948293404245721771497210611414266254884915640806627990306816 * e_s24 + 2135987035920910082395021706169552114602704522356652769947041607822219725780640550022962086936576 * e_s23 + 2135987035920910082395021706169552114602704522356652769947041607822219725780640550022962086936576 * e_p22 + 115792089237316195423570985008687907853269984665640564039457584007913129639936 * e_s21 + 6277101735386680763835789423207666416102355444464034512896 * e_p20 + 726838724295606890549323807888004534353641360687318060281490199180639288113397923326191050713763565560762521606266177933534601628614656 * e_s19 + 39402006196394479212279040100143613805079739270465446667948293404245721771497210611414266254884915640806627990306816 * e_s18 + 39402006196394479212279040100143613805079739270465446667948293404245721771497210611414266254884915640806627990306816 * e_p17 + 2135987035920910082395021706169552114602704522356652769947041607822219725780640550022962086936576 * e_s16 + 115792089237316195423570985008687907853269984665640564039457584007913129639936 * e_s15 + 115792089237316195423570985008687907853269984665640564039457584007913129639936 * e_p14 + 39402006196394479212279040100143613805079739270465446667948293404245721771497210611414266254884915640806627990306816 * e_s13 + 2135987035920910082395021706169552114602704522356652769947041607822219725780640550022962086936576 * e_s12 + 115792089237316195423570985008687907853269984665640564039457584007913129639936 * e_s11 + 115792089237316195423570985008687907853269984665640564039457584007913129639936 * e_p10 + 39402006196394479212279040100143613805079739270465446667948293404245721771497210611414266254884915640806627990306816 * e_s9 + 2135987035920910082395021706169552114602704522356652769947041607822219725780640550022962086936576 * e_s8 + 2135987035920910082395021706169552114602704522356652769947041607822219725780640550022962086936576 * e_p7 + 115792089237316195423570985008687907853269984665640564039457584007913129639936 * e_s6 + 6277101735386680763835789423207666416102355444464034512896 * e_p5 + 2135987035920910082395021706169552114602704522356652769947041607822219725780640550022962086936576 * e_s4 + 115792089237316195423570985008687907853269984665640564039457584007913129639936 * e_s3 + 115792089237316195423570985008687907853269984665640564039457584007913129639936 * e_p2 + 6277101735386680763835789423207666416102355444464034512896 * e_p1 + -13407807929942597099574024998205846127479365820592393377723561443721764030073546976801874298166903427690031858186486050853753882811946569946433649006084096 * z_s25 + -13407807929942597099574024998205846127479365820592393377723561443721764030073546976801874298166903427690031858186486050853753882811946569946433649006084096 * z_s19 + -726838724295606890549323807888004534353641360687318060281490199180639288113397923326191050713763565560762521606266177933534601628614656 * z_s13 + -726838724295606890549323807888004534353641360687318060281490199180639288113397923326191050713763565560762521606266177933534601628614656 * z_s9 + -39402006196394479212279040100143613805079739270465446667948293404245721771497210611414266254884915640806627990306816 * z_s4
    have : s33c < 1 := by linarith only [e, l_s33c, l_s33v, l_s32v, l_s30v, l_s29v, l_s27v, l_p26l, l_p20l, l_p5l, l_p1l, u_x_w4_mu_w3, u_x_w2_mu_w3, u_x_w0_mu_w3, u_x_w3_mu_w2, u_x_w1_mu_w2, u_x_w4_mu_w2, u_x_w2_mu_w2, u_x_w3_mu_w1, u_x_w4_mu_w1, u_x_w2_mu_w1, u_x_w4_mu_w0, u_x_w3_mu_w0]
    omega
  have z_s40 : s40c = 0 := by
    have e : 247330401473104534060502521019647190035131349101211839914063056092897225106531867170316401061243044989597671426016139339351365034306751209967546155101893167916606772148699136 * s40c + 13407807929942597099574024998205846127479365820592393377723561443721764030073546976801874298166903427690031858186486050853753882811946569946433649006084096 * s40v + 726838724295606890549323807888004534353641360687318060281490199180639288113397923326191050713763565560762521606266177933534601628614656 * s39v + 39402006196394479212279040100143613805079739270465446667948293404245721771497210611414266254884915640806627990306816 * s38v + 2135987035920910082395021706169552114602704522356652769947041607822219725780640550022962086936576 * s36v + 115792089237316195423570985008687907853269984665640564039457584007913129639936 * s35v + 6277101735386680763835789423207666416102355444464034512896 * p26l + 6277101735386680763835789423207666416102355444464034512896 * p20l + 6277101735386680763835789423207666416102355444464034512896 * p5l + 6277101735386680763835789423207666416102355444464034512896 * p1l = 39402006196394479212279040100143613805079739270465446667948293404245721771497210611414266254884915640806627990306816 * (x_w3 * mu_w3) + 115792089237316195423570985008687907853269984665640564039457584007913129639936 * (x_w1 * mu_w3) + 726838724295606890549323807888004534353641360687318060281490199180639288113397923326191050713763565560762521606266177933534601628614656 * (x_w4 * mu_w3) + 2135987035920910082395021706169552114602704522356652769947041607822219725780640550022962086936576 * (x_w2 * mu_w3) + 6277101735386680763835789423207666416102355444464034512896 * (x_w0 * mu_w3) + 2135987035920910082395021706169552114602704522356652769947041607822219725780640550022962086936576 * (x_w3 * mu_w2) + 6277101735386680763835789423207666416102355444464034512896 * (x_w1 * mu_w2) + 39402006196394479212279040100143613805079739270465446667948293404245721771497210611414266254884915640806627990306816 * (x_w4 * mu_w2) + 115792089237316195423570985008687907853269984665640564039457584007913129639936 * (x_w2 * mu_w2) + 115792089237316195423570985008687907853269984665640564039457584007913129639936 * (x_w3 * mu_w1) + 2135987035920910082395021706169552114602704522356652769947041607822219725780640550022962086936576 * (x_w4 * mu_w1) + 6277101735386680763835789423207666416102355444464034512896 * (x_w2 * mu_w1) + 115792089237316195423570985008687907853269984665640564039457584007913129639936 * (x_w4 * mu_w0) + 6277101735386680763835789423207666416102355444464034512896 * (x_w3 * mu_w0) := by
      linear_combination 13407807929942597099574024998205846127479365820592393377723561443721764030073546976801874298166903427690031858186486050853753882811946569946433649006084096 * e_s40 + 726838724295606890549323807888004534353641360687318060281490199180639288113397923326191050713763565560762521606266177933534601628614656 * e_s39 + 39402006196394479212279040100143613805079739270465446667948293404245721771497210611414266254884915640806627990306816 * e_s38 + 39402006196394479212279040100143613805079739270465446667948293404245721771497210611414266254884915640806627990306816 * e_p37 + 2135987035920910082395021706169552114602704522356652769947041607822219725780640550022962086936576 * e_s36 + 115792089237316195423570985008687907853269984665640564039457584007913129639936 * e_s35 + 115792089237316195423570985008687907853269984665640564039457584007913129639936 * e_p34 + 13407807929942597099574024998205846127479365820592393377723561443721764030073546976801874298166903427690031858186486050853753882811946569946433649006084096 * e_s33 + 726838724295606890549323807888004534353641360687318060281490199180639288113397923326191050713763565560762521606266177933534601628614656 * e_s32 + 726838724295606890549323807888004534353641360687318060281490199180639288113397923326191050713763565560762521606266177933534601628614656 * e_p31 + 39402006196394479212279040100143613805079739270465446667948293404245721771497210611414266254884915640806627990306816 * e_s30 + 2135987035920910082395021706169552114602704522356652769947041607822219725780640550022962086936576 * e_s29 + 2135987035920910082395021706169552114602704522356652769947041607822219725780640550022962086936576 * e_p28 + 115792089237316195423570985008687907853269984665640564039457584007913129639936 * e_s27 + 6277101735386680763835789423207666416102355444464034512896 * e_p26 + 726838724295606890549323807888004534353641360687318060281490199180639288113397923326191050713763565560762521606266177933534601628614656 * e_s25 + 39402006196394479212279040100143613805079739270465446667948293404245721771497210611414266254884915640806627990306816 * e_s24 + 2135987035920910082395021706169552114602704522356652769947041607822219725780640550022962086936576 * e_s23 + 2135987035920910082395021706169552114602704522356652769947041607822219725780640550022962086936576 * e_p22 + 115792089237316195423570985008687907853269984665640564039457584007913129639936 * e_s21 + 6277101735386680763835789423207666416102355444464034512896 * e_p20 + 726838724295606890549323807888004534353641360687318060281490199180639288113397923326191050713763565560762521606266177933534601628614656 * e_s19 + 39402006196394479212279040100143613805079739270465446667948293404245721771497210611414266254884915640806627990306816 * e_s18 + 39402006196394479212279040100143613805079739270465446667948293404245721771497210611414266254884915640806627990306816 * e_p17 + 2135987035920910082395021706169552114602704522356652769947041607822219725780640550022962086936576 * e_s16 + 115792089237316195423570985008687907853269984665640564039457584007913129639936 * e_s15 + 115792089237316195423570985008687907853269984665640564039457584007913129639936 * e_p14 + 39402006196394479212279040100143613805079739270465446667948293404245721771497210611414266254884915640806627990306816 * e_s13 + 2135987035920910082395021706169552114602704522356652769947041607822219725780640550022962086936576 * e_s12 + 115792089237316195423570985008687907853269984665640564039457584007913129639936 * e_s11 + 115792089237316195423570985008687907853269984665640564039457584007913129639936 * e_p10 + 39402006196394479212279040100143613805079739270465446667948293404245721771497210611414266254884915640806627990306816 * e_s9 + 2135987035920910082395021706169552114602704522356652769947041607822219725780640550022962086936576 * e_s8 + 2135987035920910082395021706169552114602704522356652769947041607822219725780640550022962086936576 * e_p7 + 115792089237316195423570985008687907853269984665640564039457584007913129639936 * e_s6 + 6277101735386680763835789423207666416102355444464034512896 * e_p5 + 2135987035920910082395021706169552114602704522356652769947041607822219725780640550022962086936576 * e_s4 + 115792089237316195423570985008687907853269984665640564039457584007913129639936 * e_s3 + 115792089237316195423570985008687907853269984665640564039457584007913129639936 * e_p2 + 6277101735386680763835789423207666416102355444464034512896 * e_p1 + -247330401473104534060502521019647190035131349101211839914063056092897225106531867170316401061243044989597671426016139339351365034306751209967546155101893167916606772148699136 * z_s33 + -13407807929942597099574024998205846127479365820592393377723561443721764030073546976801874298166903427690031858186486050853753882811946569946433649006084096 * z_s25 + -13407807929942597099574024998205846127479365820592393377723561443721764030073546976801874298166903427690031858186486050853753882811946569946433649006084096 * z_s19 + -726838724295606890549323807888004534353641360687318060281490199180639288113397923326191050713763565560762521606266177933534601628614656 * z_s13 + -726838724295606890549323807888004534353641360687318060281490199180639288113397923326191050713763565560762521606266177933534601628614656 * z_s9 + -39402006196394479212279040100143613805079739270465446667948293404245721771497210611414266254884915640806627990306816 * z_s4
    have : s40c < 1 := by linarith only [e, l_s40c, l_s40v, l_s39v, l_s38v, l_s36v, l_s35v, l_p26l, l_p20l, l_p5l, l_p1l, u_x_w3_mu_w3, u_x_w1_mu_w3, u_x_w4_mu_w3, u_x_w2_mu_w3, u_x_w0_mu_w3, u_x_w3_mu_w2, u_x_w1_mu_w2, u_x_w4_mu_w2, u_x_w2_mu_w2, u_x_w3_mu_w1, u_x_w4_mu_w1, u_x_w2_mu_w1, u_x_w4_mu_w0, u_x_w3_mu_w0]
    omega
  have z_s49 : s49c = 0 := by
    have e : 4562440617622195218641171605700291324893228507248559930579192517899275167208677386505912811317371399778642309573594407310688704721375437998252661319722214188251994674360264950082874192246603776 * s49c + 247330401473104534060502521019647190035131349101211839914063056092897225106531867170316401061243044989597671426016139339351365034306751209967546155101893167916606772148699136 * s49v + 13407807929942597099574024998205846127479365820592393377723561443721764030073546976801874298166903427690031858186486050853753882811946569946433649006084096 * s48v + 726838724295606890549323807888004534353641360687318060281490199180639288113397923326191050713763565560762521606266177933534601628614656 * s46v + 39402006196394479212279040100143613805079739270465446667948293404245721771497210611414266254884915640806627990306816 * s45v + 2135987035920910082395021706169552114602704522356652769947041607822219725780640550022962086936576 * s43v + 115792089237316195423570985008687907853269984665640564039457584007913129639936 * s42v + 6277101735386680763835789423207666416102355444464034512896 * p26l + 6277101735386680763835789423207666416102355444464034512896 * p20l + 6277101735386680763835789423207666416102355444464034512896 * p5l + 6277101735386680763835789423207666416102355444464034512896 * p1l = 13407807929942597099574024998205846127479365820592393377723561443721764030073546976801874298166903427690031858186486050853753882811946569946433649006084096 * (x_w4 * mu_w4) + 39402006196394479212279040100143613805079739270465446667948293404245721771497210611414266254884915640806627990306816 * (x_w2 * mu_w4) + 115792089237316195423570985008687907853269984665640564039457584007913129639936 * (x_w0 * mu_w4) + 39402006196394479212279040100143613805079739270465446667948293404245721771497210611414266254884915640806627990306816 * (x_w3 * mu_w3) + 115792089237316195423570985008687907853269984665640564039457584007913129639936 * (x_w1 * mu_w3) + 726838724295606890549323807888004534353641360687318060281490199180639288113397923326191050713763565560762521606266177933534601628614656 * (x_w4 * mu_w3) + 2135987035920910082395021706169552114602704522356652769947041607822219725780640550022962086936576 * (x_w2 * mu_w3) + 6277101735386680763835789423207666416102355444464034512896 * (x_w0 * mu_w3) + 2135987035920910082395021706169552114602704522356652769947041607822219725780640550022962086936576 * (x_w3 * mu_w2) + 6277101735386680763835789423207666416102355444464034512896 * (x_w1 * mu_w2) + 39402006196394479212279040100143613805079739270465446667948293404245721771497210611414266254884915640806627990306816 * (x_w4 * mu_w2) + 115792089237316195423570985008687907853269984665640564039457584007913129639936 * (x_w2 * mu_w2) + 115792089237316195423570985008687907853269984665640564039457584007913129639936 * (x_w3 * mu_w1) + 2135987035920910082395021706169552114602704522356652769947041607822219725780640550022962086936576 * (x_w4 * mu_w1) + 6277101735386680763835789423207666416102355444464034512896 * (x_w2 * mu_w1) + 115792089237316195423570985008687907853269984665640564039457584007913129639936 * (x_w4 * mu_w0) + 6277101735386680763835789423207666416102355444464034512896 * (x_w3 * mu_w0) := by
      linear_combination 247330401473104534060502521019647190035131349101211839914063056092897225106531867170316401061243044989597671426016139339351365034306751209967546155101893167916606772148699136 * e_s49 + 13407807929942597099574024998205846127479365820592393377723561443721764030073546976801874298166903427690031858186486050853753882811946569946433649006084096 * e_s48 + 13407807929942597099574024998205846127479365820592393377723561443721764030073546976801874298166903427690031858186486050853753882811946569946433649006084096 * e_p47 + 726838724295606890549323807888004534353641360687318060281490199180639288113397923326191050713763565560762521606266177933534601628614656 * e_s46 + 39402006196394479212279040100143613805079739270465446667948293404245721771497210611414266254884915640806627990306816 * e_s45 + 39402006196394479212279040100143613805079739270465446667948293404245721771497210611414266254884915640806627990306816 * e_p44 + 2135987035920910082395021706169552114602704522356652769947041607822219725780640550022962086936576 * e_s43 + 115792089237316195423570985008687907853269984665640564039457584007913129639936 * e_s42 + 115792089237316195423570985008687907853269984665640564039457584007913129639936 * e_p41 + 13407807929942597099574024998205846127479365820592393377723561443721764030073546976801874298166903427690031858186486050853753882811946569946433649006084096 * e_s40 + 726838724295606890549323807888004534353641360687318060281490199180639288113397923326191050713763565560762521606266177933534601628614656 * e_s39 + 39402006196394479212279040100143613805079739270465446667948293404245721771497210611414266254884915640806627990306816 * e_s38 + 39402006196394479212279040100143613805079739270465446667948293404245721771497210611414266254884915640806627990306816 * e_p37 + 2135987035920910082395021706169552114602704522356652769947041607822219725780640550022962086936576 * e_s36 + 115792089237316195423570985008687907853269984665640564039457584007913129639936 * e_s35 + 115792089237316195423570985008687907853269984665640564039457584007913129639936 * e_p34 + 13407807929942597099574024998205846127479365820592393377723561443721764030073546976801874298166903427690031858186486050853753882811946569946433649006084096 * e_s33 + 726838724295606890549323807888004534353641360687318060281490199180639288113397923326191050713763565560762521606266177933534601628614656 * e_s32 + 726838724295606890549323807888004534353641360687318060281490199180639288113397923326191050713763565560762521606266177933534601628614656 * e_p31 + 39402006196394479212279040100143613805079739270465446667948293404245721771497210611414266254884915640806627990306816 * e_s30 + 2135987035920910082395021706169552114602704522356652769947041607822219725780640550022962086936576 * e_s29 + 2135987035920910082395021706169552114602704522356652769947041607822219725780640550022962086936576 * e_p28 + 115792089237316195423570985008687907853269984665640564039457584007913129639936 * e_s27 + 6277101735386680763835789423207666416102355444464034512896 * e_p26 + 726838724295606890549323807888004534353641360687318060281490199180639288113397923326191050713763565560762521606266177933534601628614656 * e_s25 + 39402006196394479212279040100143613805079739270465446667948293404245721771497210611414266254884915640806627990306816 * e_s24 + 2135987035920910082395021706169552114602704522356652769947041607822219725780640550022962086936576 * e_s23 + 2135987035920910082395021706169552114602704522356652769947041607822219725780640550022962086936576 * e_p22 + 115792089237316195423570985008687907853269984665640564039457584007913129639936 * e_s21 + 6277101735386680763835789423207666416102355444464034512896 * e_p20 + 726838724295606890549323807888004534353641360687318060281490199180639288113397923326191050713763565560762521606266177933534601628614656 * e_s19 + 39402006196394479212279040100143613805079739270465446667948293404245721771497210611414266254884915640806627990306816 * e_s18 + 39402006196394479212279040100143613805079739270465446667948293404245721771497210611414266254884915640806627990306816 * e_p17 + 2135987035920910082395021706169552114602704522356652769947041607822219725780640550022962086936576 * e_s16 + 115792089237316195423570985008687907853269984665640564039457584007913129639936 * e_s15 + 115792089237316195423570985008687907853269984665640564039457584007913129639936 * e_p14 + 39402006196394479212279040100143613805079739270465446667948293404245721771497210611414266254884915640806627990306816 * e_s13 + 2135987035920910082395021706169552114602704522356652769947041607822219725780640550022962086936576 * e_s12 + 115792089237316195423570985008687907853269984665640564039457584007913129639936 * e_s11 + 115792089237316195423570985008687907853269984665640564039457584007913129639936 * e_p10 + 39402006196394479212279040100143613805079739270465446667948293404245721771497210611414266254884915640806627990306816 * e_s9 + 2135987035920910082395021706169552114602704522356652769947041607822219725780640550022962086936576 * e_s8 + 2135987035920910082395021706169552114602704522356652769947041607822219725780640550022962086936576 * e_p7 + 115792089237316195423570985008687907853269984665640564039457584007913129639936 * e_s6 + 6277101735386680763835789423207666416102355444464034512896 * e_p5 + 2135987035920910082395021706169552114602704522356652769947041607822219725780640550022962086936576 * e_s4 + 115792089237316195423570985008687907853269984665640564039457584007913129639936 * e_s3 + 115792089237316195423570985008687907853269984665640564039457584007913129639936 * e_p2 + 6277101735386680763835789423207666416102355444464034512896 * e_p1 + -247330401473104534060502521019647190035131349101211839914063056092897225106531867170316401061243044989597671426016139339351365034306751209967546155101893167916606772148699136 * z_s40 + -247330401473104534060502521019647190035131349101211839914063056092897225106531867170316401061243044989597671426016139339351365034306751209967546155101893167916606772148699136 * z_s33 + -13407807929942597099574024998205846127479365820592393377723561443721764030073546976801874298166903427690031858186486050853753882811946569946433649006084096 * z_s25 + -13407807929942597099574024998205846127479365820592393377723561443721764030073546976801874298166903427690031858186486050853753882811946569946433649006084096 * z_s19 + -726838724295606890549323807888004534353641360687318060281490199180639288113397923326191050713763565560762521606266177933534601628614656 * z_s13 + -726838724295606890549323807888004534353641360687318060281490199180639288113397923326191050713763565560762521606266177933534601628614656 * z_s9 + -39402006196394479212279040100143613805079739270465446667948293404245721771497210611414266254884915640806627990306816 * z_s4
    have : s49c < 1 := by linarith only [e, l_s49c, l_s49v, l_s48v, l_s46v, l_s45v, l_s43v, l_s42v, l_p26l, l_p20l, l_p5l, l_p1l, u_x_w4_mu_w4, u_x_w2_mu_w4, u_x_w0_mu_w4, u_x_w3_mu_w3, u_x_w1_mu_w3, u_x_w4_mu_w3, u_x_w2_mu_w3, u_x_w0_mu_w3, u_x_w3_mu_w2, u_x_w1_mu_w2, u_x_w4_mu_w2, u_x_w2_mu_w2, u_x_w3_mu_w1, u_x_w4_mu_w1, u_x_w2_mu_w1, u_x_w4_mu_w0, u_x_w3_mu_w0]
    omega
  have z_s56 : s56c = 0 := by
    have e : 4562440617622195218641171605700291324893228507248559930579192517899275167208677386505912811317371399778642309573594407310688704721375437998252661319722214188251994674360264950082874192246603776 * s56c + 247330401473104534060502521019647190035131349101211839914063056092897225106531867170316401061243044989597671426016139339351365034306751209967546155101893167916606772148699136 * s56v + 13407807929942597099574024998205846127479365820592393377723561443721764030073546976801874298166903427690031858186486050853753882811946569946433649006084096 * s55v + 726838724295606890549323807888004534353641360687318060281490199180639288113397923326191050713763565560762521606266177933534601628614656 * s54v + 39402006196394479212279040100143613805079739270465446667948293404245721771497210611414266254884915640806627990306816 * s52v + 2135987035920910082395021706169552114602704522356652769947041607822219725780640550022962086936576 * s51v + 115792089237316195423570985008687907853269984665640564039457584007913129639936 * s42v + 6277101735386680763835789423207666416102355444464034512896 * p26l + 6277101735386680763835789423207666416102355444464034512896 * p20l + 6277101735386680763835789423207666416102355444464034512896 * p5l + 6277101735386680763835789423207666416102355444464034512896 * p1l = 726838724295606890549323807888004534353641360687318060281490199180639288113397923326191050713763565560762521606266177933534601628614656 * (x_w3 * mu_w4) + 2135987035920910082395021706169552114602704522356652769947041607822219725780640550022962086936576 * (x_w1 * mu_w4) + 13407807929942597099574024998205846127479365820592393377723561443721764030073546976801874298166903427690031858186486050853753882811946569946433649006084096 * (x_w4 * mu_w4) + 39402006196394479212279040100143613805079739270465446667948293404245721771497210611414266254884915640806627990306816 * (x_w2 * mu_w4) + 115792089237316195423570985008687907853269984665640564039457584007913129639936 * (x_w0 * mu_w4) + 39402006196394479212279040100143613805079739270465446667948293404245721771497210611414266254884915640806627990306816 * (x_w3 * mu_w3) + 115792089237316195423570985008687907853269984665640564039457584007913129639936 * (x_w1 * mu_w3) + 726838724295606890549323807888004534353641360687318060281490199180639288113397923326191050713763565560762521606266177933534601628614656 * (x_w4 * mu_w3) + 2135987035920910082395021706169552114602704522356652769947041607822219725780640550022962086936576 * (x_w2 * mu_w3) + 6277101735386680763835789423207666416102355444464034512896 * (x_w0 * mu_w3) + 2135987035920910082395021706169552114602704522356652769947041607822219725780640550022962086936576 * (x_w3 * mu_w2) + 6277101735386680763835789423207666416102355444464034512896 * (x_w1 * mu_w2) + 39402006196394479212279040100143613805079739270465446667948293404245721771497210611414266254884915640806627990306816 * (x_w4 * mu_w2) + 115792089237316195423570985008687907853269984665640564039457584007913129639936 * (x_w2 * mu_w2) + 115792089237316195423570985008687907853269984665640564039457584007913129639936 * (x_w3 * mu_w1) + 2135987035920910082395021706169552114602704522356652769947041607822219725780640550022962086936576 * (x_w4 * mu_w1) + 6277101735386680763835789423207666416102355444464034512896 * (x_w2 * mu_w1) + 115792089237316195423570985008687907853269984665640564039457584007913129639936 * (x_w4 * mu_w0) + 6277101735386680763835789423207666416102355444464034512896 * (x_w3 * mu_w0) := by
      linear_combination 247330401473104534060502521019647190035131349101211839914063056092897225106531867170316401061243044989597671426016139339351365034306751209967546155101893167916606772148699136 * e_s56 + 13407807929942597099574024998205846127479365820592393377723561443721764030073546976801874298166903427690031858186486050853753882811946569946433649006084096 * e_s55 + 726838724295606890549323807888004534353641360687318060281490199180639288113397923326191050713763565560762521606266177933534601628614656 * e_s54 + 726838724295606890549323807888004534353641360687318060281490199180639288113397923326191050713763565560762521606266177933534601628614656 * e_p53 + 39402006196394479212279040100143613805079739270465446667948293404245721771497210611414266254884915640806627990306816 * e_s52 + 2135987035920910082395021706169552114602704522356652769947041607822219725780640550022962086936576 * e_s51 + 2135987035920910082395021706169552114602704522356652769947041607822219725780640550022962086936576 * e_p50 + 247330401473104534060502521019647190035131349101211839914063056092897225106531867170316401061243044989597671426016139339351365034306751209967546155101893167916606772148699136 * e_s49 + 13407807929942597099574024998205846127479365820592393377723561443721764030073546976801874298166903427690031858186486050853753882811946569946433649006084096 * e_s48 + 13407807929942597099574024998205846127479365820592393377723561443721764030073546976801874298166903427690031858186486050853753882811946569946433649006084096 * e_p47 + 726838724295606890549323807888004534353641360687318060281490199180639288113397923326191050713763565560762521606266177933534601628614656 * e_s46 + 39402006196394479212279040100143613805079739270465446667948293404245721771497210611414266254884915640806627990306816 * e_s45 + 39402006196394479212279040100143613805079739270465446667948293404245721771497210611414266254884915640806627990306816 * e_p44 + 2135987035920910082395021706169552114602704522356652769947041607822219725780640550022962086936576 * e_s43 + 115792089237316195423570985008687907853269984665640564039457584007913129639936 * e_s42 + 115792089237316195423570985008687907853269984665640564039457584007913129639936 * e_p41 + 13407807929942597099574024998205846127479365820592393377723561443721764030073546976801874298166903427690031858186486050853753882811946569946433649006084096 * e_s40 + 726838724295606890549323807888004534353641360687318060281490199180639288113397923326191050713763565560762521606266177933534601628614656 * e_s39 + 39402006196394479212279040100143613805079739270465446667948293404245721771497210611414266254884915640806627990306816 * e_s38 + 39402006196394479212279040100143613805079739270465446667948293404245721771497210611414266254884915640806627990306816 * e_p37 + 2135987035920910082395021706169552114602704522356652769947041607822219725780640550022962086936576 * e_s36 + 115792089237316195423570985008687907853269984665640564039457584007913129639936 * e_s35 + 115792089237316195423570985008687907853269984665640564039457584007913129639936 * e_p34 + 13407807929942597099574024998205846127479365820592393377723561443721764030073546976801874298166903427690031858186486050853753882811946569946433649006084096 * e_s33 + 726838724295606890549323807888004534353641360687318060281490199180639288113397923326191050713763565560762521606266177933534601628614656 * e_s32 + 726838724295606890549323807888004534353641360687318060281490199180639288113397923326191050713763565560762521606266177933534601628614656 * e_p31 + 39402006196394479212279040100143613805079739270465446667948293404245721771497210611414266254884915640806627990306816 * e_s30 + 2135987035920910082395021706169552114602704522356652769947041607822219725780640550022962086936576 * e_s29 + 2135987035920910082395021706169552114602704522356652769947041607822219725780640550022962086936576 * e_p28 + 115792089237316195423570985008687907853269984665640564039457584007913129639936 * e_s27 + 6277101735386680763835789423207666416102355444464034512896 * e_p26 + 726838724295606890549323807888004534353641360687318060281490199180639288113397923326191050713763565560762521606266177933534601628614656 * e_s25 + 39402006196394479212279040100143613805079739270465446667948293404245721771497210611414266254884915640806627990306816 * e_s24 + 2135987035920910082395021706169552114602704522356652769947041607822219725780640550022962086936576 * e_s23 + 2135987035920910082395021706169552114602704522356652769947041607822219725780640550022962086936576 * e_p22 + 115792089237316195423570985008687907853269984665640564039457584007913129639936 * e_s21 + 6277101735386680763835789423207666416102355444464034512896 * e_p20 + 726838724295606890549323807888004534353641360687318060281490199180639288113397923326191050713763565560762521606266177933534601628614656 * e_s19 + 39402006196394479212279040100143613805079739270465446667948293404245721771497210611414266254884915640806627990306816 * e_s18 + 39402006196394479212279040100143613805079739270465446667948293404245721771497210611414266254884915640806627990306816 * e_p17 + 2135987035920910082395021706169552114602704522356652769947041607822219725780640550022962086936576 * e_s16 + 115792089237316195423570985008687907853269984665640564039457584007913129639936 * e_s15 + 115792089237316195423570985008687907853269984665640564039457584007913129639936 * e_p14 + 39402006196394479212279040100143613805079739270465446667948293404245721771497210611414266254884915640806627990306816 * e_s13 + 2135987035920910082395021706169552114602704522356652769947041607822219725780640550022962086936576 * e_s12 + 115792089237316195423570985008687907853269984665640564039457584007913129639936 * e_s11 + 115792089237316195423570985008687907853269984665640564039457584007913129639936 * e_p10 + 39402006196394479212279040100143613805079739270465446667948293404245721771497210611414266254884915640806627990306816 * e_s9 + 2135987035920910082395021706169552114602704522356652769947041607822219725780640550022962086936576 * e_s8 + 2135987035920910082395021706169552114602704522356652769947041607822219725780640550022962086936576 * e_p7 + 115792089237316195423570985008687907853269984665640564039457584007913129639936 * e_s6 + 6277101735386680763835789423207666416102355444464034512896 * e_p5 + 2135987035920910082395021706169552114602704522356652769947041607822219725780640550022962086936576 * e_s4 + 115792089237316195423570985008687907853269984665640564039457584007913129639936 * e_s3 + 115792089237316195423570985008687907853269984665640564039457584007913129639936 * e_p2 + 6277101735386680763835789423207666416102355444464034512896 * e_p1 + -4562440617622195218641171605700291324893228507248559930579192517899275167208677386505912811317371399778642309573594407310688704721375437998252661319722214188251994674360264950082874192246603776 * z_s49 + -247330401473104534060502521019647190035131349101211839914063056092897225106531867170316401061243044989597671426016139339351365034306751209967546155101893167916606772148699136 * z_s40 + -247330401473104534060502521019647190035131349101211839914063056092897225106531867170316401061243044989597671426016139339351365034306751209967546155101893167916606772148699136 * z_s33 + -13407807929942597099574024998205846127479365820592393377723561443721764030073546976801874298166903427690031858186486050853753882811946569946433649006084096 * z_s25 + -13407807929942597099574024998205846127479365820592393377723561443721764030073546976801874298166903427690031858186486050853753882811946569946433649006084096 * z_s19 + -726838724295606890549323807888004534353641360687318060281490199180639288113397923326191050713763565560762521606266177933534601628614656 * z_s13 + -726838724295606890549323807888004534353641360687318060281490199180639288113397923326191050713763565560762521606266177933534601628614656 * z_s9 + -39402006196394479212279040100143613805079739270465446667948293404245721771497210611414266254884915640806627990306816 * z_s4
    have : s56c < 1 := by linarith only [e, l_s56c, l_s56v, l_s55v, l_s54v, l_s52v, l_s51v, l_s42v, l_p26l, l_p20l, l_p5l, l_p1l, u_x_w3_mu_w4, u_x_w1_mu_w4, u_x_w4_mu_w4, u_x_w2_mu_w4, u_x_w0_mu_w4, u_x_w3_mu_w3, u_x_w1_mu_w3, u_x_w4_mu_w3, u_x_w2_mu_w3, u_x_w0_mu_w3, u_x_w3_mu_w2, u_x_w1_mu_w2, u_x_w4_mu_w2, u_x_w2_mu_w2, u_x_w3_mu_w1, u_x_w4_mu_w1, u_x_w2_mu_w1, u_x_w4_mu_w0, u_x_w3_mu_w0]
    omega
  have e : 2135987035920910082395021706169552114602704522356652769947041607822219725780640550022962086936576 * s51v + 39402006196394479212279040100143613805079739270465446667948293404245721771497210611414266254884915640806627990306816 * s52v + 726838724295606890549323807888004534353641360687318060281490199180639288113397923326191050713763565560762521606266177933534601628614656 * s54v + 13407807929942597099574024998205846127479365820592393377723561443721764030073546976801874298166903427690031858186486050853753882811946569946433649006084096 * s55v + 247330401473104534060502521019647190035131349101211839914063056092897225106531867170316401061243044989597671426016139339351365034306751209967546155101893167916606772148699136 * s56v + 115792089237316195423570985008687907853269984665640564039457584007913129639936 * s42v + 6277101735386680763835789423207666416102355444464034512896 * p26l + 6277101735386680763835789423207666416102355444464034512896 * p20l + 6277101735386680763835789423207666416102355444464034512896 * p5l + 6277101735386680763835789423207666416102355444464034512896 * p1l = 726838724295606890549323807888004534353641360687318060281490199180639288113397923326191050713763565560762521606266177933534601628614656 * (x_w3 * mu_w4) + 2135987035920910082395021706169552114602704522356652769947041607822219725780640550022962086936576 * (x_w1 * mu_w4) + 13407807929942597099574024998205846127479365820592393377723561443721764030073546976801874298166903427690031858186486050853753882811946569946433649006084096 * (x_w4 * mu_w4) + 39402006196394479212279040100143613805079739270465446667948293404245721771497210611414266254884915640806627990306816 * (x_w2 * mu_w4) + 115792089237316195423570985008687907853269984665640564039457584007913129639936 * (x_w0 * mu_w4) + 39402006196394479212279040100143613805079739270465446667948293404245721771497210611414266254884915640806627990306816 * (x_w3 * mu_w3) + 115792089237316195423570985008687907853269984665640564039457584007913129639936 * (x_w1 * mu_w3) + 726838724295606890549323807888004534353641360687318060281490199180639288113397923326191050713763565560762521606266177933534601628614656 * (x_w4 * mu_w3) + 2135987035920910082395021706169552114602704522356652769947041607822219725780640550022962086936576 * (x_w2 * mu_w3) + 6277101735386680763835789423207666416102355444464034512896 * (x_w0 * mu_w3) + 2135987035920910082395021706169552114602704522356652769947041607822219725780640550022962086936576 * (x_w3 * mu_w2) + 6277101735386680763835789423207666416102355444464034512896 * (x_w1 * mu_w2) + 39402006196394479212279040100143613805079739270465446667948293404245721771497210611414266254884915640806627990306816 * (x_w4 * mu_w2) + 115792089237316195423570985008687907853269984665640564039457584007913129639936 * (x_w2 * mu_w2) + 115792089237316195423570985008687907853269984665640564039457584007913129639936 * (x_w3 * mu_w1) + 2135987035920910082395021706169552114602704522356652769947041607822219725780640550022962086936576 * (x_w4 * mu_w1) + 6277101735386680763835789423207666416102355444464034512896 * (x_w2 * mu_w1) + 115792089237316195423570985008687907853269984665640564039457584007913129639936 * (x_w4 * mu_w0) + 6277101735386680763835789423207666416102355444464034512896 * (x_w3 * mu_w0) := by
    linear_combination 247330401473104534060502521019647190035131349101211839914063056092897225106531867170316401061243044989597671426016139339351365034306751209967546155101893167916606772148699136 * e_s56 + 13407807929942597099574024998205846127479365820592393377723561443721764030073546976801874298166903427690031858186486050853753882811946569946433649006084096 * e_s55 + 726838724295606890549323807888004534353641360687318060281490199180639288113397923326191050713763565560762521606266177933534601628614656 * e_s54 + 726838724295606890549323807888004534353641360687318060281490199180639288113397923326191050713763565560762521606266177933534601628614656 * e_p53 + 39402006196394479212279040100143613805079739270465446667948293404245721771497210611414266254884915640806627990306816 * e_s52 + 2135987035920910082395021706169552114602704522356652769947041607822219725780640550022962086936576 * e_s51 + 2135987035920910082395021706169552114602704522356652769947041607822219725780640550022962086936576 * e_p50 + 247330401473104534060502521019647190035131349101211839914063056092897225106531867170316401061243044989597671426016139339351365034306751209967546155101893167916606772148699136 * e_s49 + 13407807929942597099574024998205846127479365820592393377723561443721764030073546976801874298166903427690031858186486050853753882811946569946433649006084096 * e_s48 + 13407807929942597099574024998205846127479365820592393377723561443721764030073546976801874298166903427690031858186486050853753882811946569946433649006084096 * e_p47 + 726838724295606890549323807888004534353641360687318060281490199180639288113397923326191050713763565560762521606266177933534601628614656 * e_s46 + 39402006196394479212279040100143613805079739270465446667948293404245721771497210611414266254884915640806627990306816 * e_s45 + 39402006196394479212279040100143613805079739270465446667948293404245721771497210611414266254884915640806627990306816 * e_p44 + 2135987035920910082395021706169552114602704522356652769947041607822219725780640550022962086936576 * e_s43 + 115792089237316195423570985008687907853269984665640564039457584007913129639936 * e_s42 + 115792089237316195423570985008687907853269984665640564039457584007913129639936 * e_p41 + 13407807929942597099574024998205846127479365820592393377723561443721764030073546976801874298166903427690031858186486050853753882811946569946433649006084096 * e_s40 + 726838724295606890549323807888004534353641360687318060281490199180639288113397923326191050713763565560762521606266177933534601628614656 * e_s39 + 39402006196394479212279040100143613805079739270465446667948293404245721771497210611414266254884915640806627990306816 * e_s38 + 39402006196394479212279040100143613805079739270465446667948293404245721771497210611414266254884915640806627990306816 * e_p37 + 2135987035920910082395021706169552114602704522356652769947041607822219725780640550022962086936576 * e_s36 + 115792089237316195423570985008687907853269984665640564039457584007913129639936 * e_s35 + 115792089237316195423570985008687907853269984665640564039457584007913129639936 * e_p34 + 13407807929942597099574024998205846127479365820592393377723561443721764030073546976801874298166903427690031858186486050853753882811946569946433649006084096 * e_s33 + 726838724295606890549323807888004534353641360687318060281490199180639288113397923326191050713763565560762521606266177933534601628614656 * e_s32 + 726838724295606890549323807888004534353641360687318060281490199180639288113397923326191050713763565560762521606266177933534601628614656 * e_p31 + 39402006196394479212279040100143613805079739270465446667948293404245721771497210611414266254884915640806627990306816 * e_s30 + 2135987035920910082395021706169552114602704522356652769947041607822219725780640550022962086936576 * e_s29 + 2135987035920910082395021706169552114602704522356652769947041607822219725780640550022962086936576 * e_p28 + 115792089237316195423570985008687907853269984665640564039457584007913129639936 * e_s27 + 6277101735386680763835789423207666416102355444464034512896 * e_p26 + 726838724295606890549323807888004534353641360687318060281490199180639288113397923326191050713763565560762521606266177933534601628614656 * e_s25 + 39402006196394479212279040100143613805079739270465446667948293404245721771497210611414266254884915640806627990306816 * e_s24 + 2135987035920910082395021706169552114602704522356652769947041607822219725780640550022962086936576 * e_s23 + 2135987035920910082395021706169552114602704522356652769947041607822219725780640550022962086936576 * e_p22 + 115792089237316195423570985008687907853269984665640564039457584007913129639936 * e_s21 + 6277101735386680763835789423207666416102355444464034512896 * e_p20 + 726838724295606890549323807888004534353641360687318060281490199180639288113397923326191050713763565560762521606266177933534601628614656 * e_s19 + 39402006196394479212279040100143613805079739270465446667948293404245721771497210611414266254884915640806627990306816 * e_s18 + 39402006196394479212279040100143613805079739270465446667948293404245721771497210611414266254884915640806627990306816 * e_p17 + 2135987035920910082395021706169552114602704522356652769947041607822219725780640550022962086936576 * e_s16 + 115792089237316195423570985008687907853269984665640564039457584007913129639936 * e_s15 + 115792089237316195423570985008687907853269984665640564039457584007913129639936 * e_p14 + 39402006196394479212279040100143613805079739270465446667948293404245721771497210611414266254884915640806627990306816 * e_s13 + 2135987035920910082395021706169552114602704522356652769947041607822219725780640550022962086936576 * e_s12 + 115792089237316195423570985008687907853269984665640564039457584007913129639936 * e_s11 + 115792089237316195423570985008687907853269984665640564039457584007913129639936 * e_p10 + 39402006196394479212279040100143613805079739270465446667948293404245721771497210611414266254884915640806627990306816 * e_s9 + 2135987035920910082395021706169552114602704522356652769947041607822219725780640550022962086936576 * e_s8 + 2135987035920910082395021706169552114602704522356652769947041607822219725780640550022962086936576 * e_p7 + 115792089237316195423570985008687907853269984665640564039457584007913129639936 * e_s6 + 6277101735386680763835789423207666416102355444464034512896 * e_p5 + 2135987035920910082395021706169552114602704522356652769947041607822219725780640550022962086936576 * e_s4 + 115792089237316195423570985008687907853269984665640564039457584007913129639936 * e_s3 + 115792089237316195423570985008687907853269984665640564039457584007913129639936 * e_p2 + 6277101735386680763835789423207666416102355444464034512896 * e_p1 + -4562440617622195218641171605700291324893228507248559930579192517899275167208677386505912811317371399778642309573594407310688704721375437998252661319722214188251994674360264950082874192246603776 * z_s56 + -4562440617622195218641171605700291324893228507248559930579192517899275167208677386505912811317371399778642309573594407310688704721375437998252661319722214188251994674360264950082874192246603776 * z_s49 + -247330401473104534060502521019647190035131349101211839914063056092897225106531867170316401061243044989597671426016139339351365034306751209967546155101893167916606772148699136 * z_s40 + -247330401473104534060502521019647190035131349101211839914063056092897225106531867170316401061243044989597671426016139339351365034306751209967546155101893167916606772148699136 * z_s33 + -13407807929942597099574024998205846127479365820592393377723561443721764030073546976801874298166903427690031858186486050853753882811946569946433649006084096 * z_s25 + -13407807929942597099574024998205846127479365820592393377723561443721764030073546976801874298166903427690031858186486050853753882811946569946433649006084096 * z_s19 + -726838724295606890549323807888004534353641360687318060281490199180639288113397923326191050713763565560762521606266177933534601628614656 * z_s13 + -726838724295606890549323807888004534353641360687318060281490199180639288113397923326191050713763565560762521606266177933534601628614656 * z_s9 + -39402006196394479212279040100143613805079739270465446667948293404245721771497210611414266254884915640806627990306816 * z_s4
  have f : (x_w0 + 18446744073709551616 * x_w1 + 340282366920938463463374607431768211456 * x_w2 + 6277101735386680763835789423207666416102355444464034512896 * x_w3 + 115792089237316195423570985008687907853269984665640564039457584007913129639936 * x_w4) * (mu_w0 + 18446744073709551616 * mu_w1 + 340282366920938463463374607431768211456 * mu_w2 + 6277101735386680763835789423207666416102355444464034512896 * mu_w3 + 115792089237316195423570985008687907853269984665640564039457584007913129639936 * mu_w4) = 1 * (x_w0 * mu_w0) + 18446744073709551616 * (x_w0 * mu_w1) + 340282366920938463463374607431768211456 * (x_w0 * mu_w2) + 6277101735386680763835789423207666416102355444464034512896 * (x_w0 * mu_w3) + 115792089237316195423570985008687907853269984665640564039457584007913129639936 * (x_w0 * mu_w4) + 18446744073709551616 * (x_w1 * mu_w0) + 340282366920938463463374607431768211456 * (x_w1 * mu_w1) + 6277101735386680763835789423207666416102355444464034512896 * (x_w1 * mu_w2) + 115792089237316195423570985008687907853269984665640564039457584007913129639936 * (x_w1 * mu_w3) + 2135987035920910082395021706169552114602704522356652769947041607822219725780640550022962086936576 * (x_w1 * mu_w4) + 340282366920938463463374607431768211456 * (x_w2 * mu_w0) + 6277101735386680763835789423207666416102355444464034512896 * (x_w2 * mu_w1) + 115792089237316195423570985008687907853269984665640564039457584007913129639936 * (x_w2 * mu_w2) + 2135987035920910082395021706169552114602704522356652769947041607822219725780640550022962086936576 * (x_w2 * mu_w3) + 39402006196394479212279040100143613805079739270465446667948293404245721771497210611414266254884915640806627990306816 * (x_w2 * mu_w4) + 6277101735386680763835789423207666416102355444464034512896 * (x_w3 * mu_w0) + 115792089237316195423570985008687907853269984665640564039457584007913129639936 * (x_w3 * mu_w1) + 2135987035920910082395021706169552114602704522356652769947041607822219725780640550022962086936576 * (x_w3 * mu_w2) + 39402006196394479212279040100143613805079739270465446667948293404245721771497210611414266254884915640806627990306816 * (x_w3 * mu_w3) + 726838724295606890549323807888004534353641360687318060281490199180639288113397923326191050713763565560762521606266177933534601628614656 * (x_w3 * mu_w4) + 115792089237316195423570985008687907853269984665640564039457584007913129639936 * (x_w4 * mu_w0) + 2135987035920910082395021706169552114602704522356652769947041607822219725780640550022962086936576 * (x_w4 * mu_w1) + 39402006196394479212279040100143613805079739270465446667948293404245721771497210611414266254884915640806627990306816 * (x_w4 * mu_w2) + 726838724295606890549323807888004534353641360687318060281490199180639288113397923326191050713763565560762521606266177933534601628614656 * (x_w4 * mu_w3) + 13407807929942597099574024998205846127479365820592393377723561443721764030073546976801874298166903427690031858186486050853753882811946569946433649006084096 * (x_w4 * mu_w4) := by ring
  rw [f]
  constructor
  · linarith only [e, l_s42v, l_p26l, l_p20l, l_p5l, l_p1l, l_x_w0_mu_w0, l_x_w0_mu_w1, l_x_w0_mu_w2, l_x_w1_mu_w0, l_x_w1_mu_w1, l_x_w2_mu_w0]
  · linarith only [e, u_s42v, u_p26l, u_p20l, u_p5l, u_p1l, u_x_w0_mu_w0, u_x_w0_mu_w1, u_x_w0_mu_w2, u_x_w1_mu_w0, u_x_w1_mu_w1, u_x_w2_mu_w0]

theorem barrettQ_spec (x mu : Words5) :
    2135987035920910082395021706169552114602704522356652769947041607822219725780640550022962086936576 * ((barrettQ x mu).toNat : ℤ) ≤ x.toNat * mu.toNat ∧ (x.toNat * mu.toNat : ℤ) < 2135987035920910082395021706169552114602704522356652769947041607822219725780640550022962086936576 * ((barrettQ x mu).toNat + 2) := by
  unfold barrettQ
  extract_lets p1 p2 s3 s4 p5 s6 p7 s8 s9 p10 s11 s12 s13 p14 s15 s16 p17 s18 s19 p20 s21 p22 s23 s24 s25 p26 s27 p28 s29 s30 p31 s32 s33 p34 s35 s36 p37 s38 s39 s40 p41 s42 s43 p44 s45 s46 p47 s48 s49 p50 s51 s52 p53 s54 s55 s56
  have e_p1 : (p1.2.toNat : ℤ) + 18446744073709551616 * p1.1.toNat = x.w3.toNat * mu.w0.toNat := mulZ _ _
  have e_p2 : (p2.2.toNat : ℤ) + 18446744073709551616 * p2.1.toNat = x.w4.toNat * mu.w0.toNat := mulZ _ _
  have e_s3 : (s3.1.toNat : ℤ) + 18446744073709551616 * s3.2.toNat = p1.1.toNat + p2.2.toNat ∧ s3.2.toNat ≤ 1 := addZc _ _
  have e_s4 : (s4.1.toNat : ℤ) + 18446744073709551616 * s4.2.toNat = p2.1.toNat + s3.2.toNat ∧ s4.2.toNat ≤ 1 := addZ0 _ _ e_s3.2
  have e_p5 : (p5.2.toNat : ℤ) + 18446744073709551616 * p5.1.toNat = x.w2.toNat * mu.w1.toNat := mulZ _ _
  have e_s6 : (s6.1.toNat : ℤ) + 18446744073709551616 * s6.2.toNat = s3.1.toNat + p5.1.toNat ∧ s6.2.toNat ≤ 1 := addZc _ _
  have e_p7 : (p7.2.toNat : ℤ) + 18446744073709551616 * p7.1.toNat = x.w4.toNat * mu.w1.toNat := mulZ _ _
  have e_s8 : (s8.1.toNat : ℤ) + 18446744073709551616 * s8.2.toNat = s4.1.toNat + p7.2.toNat + s6.2.toNat ∧ s8.2.toNat ≤ 1 := addZ _ _ _ e_s6.2
  have e_s9 : (s9.1.toNat : ℤ) + 18446744073709551616 * s9.2.toNat = p7.1.toNat + s8.2.toNat ∧ s9.2.toNat ≤ 1 := addZ0 _ _ e_s8.2
  have e_p10 : (p10.2.toNat : ℤ) + 18446744073709551616 * p10.1.toNat = x.w3.toNat * mu.w1.toNat := mulZ _ _
  have e_s11 : (s11.1.toNat : ℤ) + 18446744073709551616 * s11.2.toNat = s6.1.toNat + p10.2.toNat ∧ s11.2.toNat ≤ 1 := addZc _ _
  have e_s12 : (s12.1.toNat : ℤ) + 18446744073709551616 * s12.2.toNat = s8.1.toNat + p10.1.toNat + s11.2.toNat ∧ s12.2.toNat ≤ 1 := addZ _ _ _ e_s11.2
  have e_s13 : (s13.1.toNat : ℤ) + 18446744073709551616 * s13.2.toNat = s9.1.toNat + s12.2.toNat ∧ s13.2.toNat ≤ 1 := addZ0 _ _ e_s12.2
  have e_p14 : (p14.2.toNat : ℤ) + 18446744073709551616 * p14.1.toNat = x.w2.toNat * mu.w2.toNat := mulZ _ _
  have e_s15 : (s15.1.toNat : ℤ) + 18446744073709551616 * s15.2.toNat = s11.1.toNat + p14.2.toNat ∧ s15.2.toNat ≤ 1 := addZc _ _
  have e_s16 : (s16.1.toNat : ℤ) + 18446744073709551616 * s16.2.toNat = s12.1.toNat + p14.1.toNat + s15.2.toNat ∧ s16.2.toNat ≤ 1 := addZ _ _ _ e_s15.2
  have e_p17 : (p17.2.toNat : ℤ) + 18446744073709551616 * p17.1.toNat = x.w4.toNat * mu.w2.toNat := mulZ _ _
  have e_s18 : (s18.1.toNat : ℤ) + 18446744073709551616 * s18.2.toNat = s13.1.toNat + p17.2.toNat + s16.2.toNat ∧ s18.2.toNat ≤ 1 := addZ _ _ _ e_s16.2
  have e_s19 : (s19.1.toNat : ℤ) + 18446744073709551616 * s19.2.toNat = p17.1.toNat + s18.2.toNat ∧ s19.2.toNat ≤ 1 := addZ0 _ _ e_s18.2
  have e_p20 : (p20.2.toNat : ℤ) + 18446744073709551616 * p20.1.toNat = x.w1.toNat * mu.w2.toNat := mulZ _ _
  have e_s21 : (s21.1.toNat : ℤ) + 18446744073709551616 * s21.2.toNat = s15.1.toNat + p20.1.toNat ∧ s21.2.toNat ≤ 1 := addZc _ _
  have e_p22 : (p22.2.toNat : ℤ) + 18446744073709551616 * p22.1.toNat = x.w3.toNat * mu.w2.toNat := mulZ _ _
  have e_s23 : (s23.1.toNat : ℤ) + 18446744073709551616 * s23.2.toNat = s16.1.toNat + p22.2.toNat + s21.2.toNat ∧ s23.2.toNat ≤ 1 := addZ _ _ _ e_s21.2
  have e_s24 : (s24.1.toNat : ℤ) + 18446744073709551616 * s24.2.toNat = s18.1.toNat + p22.1.toNat + s23.2.toNat ∧ s24.2.toNat ≤ 1 := addZ _ _ _ e_s23.2
  have e_s25 : (s25.1.toNat : ℤ) + 18446744073709551616 * s25.2.toNat = s19.1.toNat + s24.2.toNat ∧ s25.2.toNat ≤ 1 := addZ0 _ _ e_s24.2
  have e_p26 : (p26.2.toNat : ℤ) + 18446744073709551616 * p26.1.toNat = x.w0.toNat * mu.w3.toNat := mulZ _ _
  have e_s27 : (s27.1.toNat : ℤ) + 18446744073709551616 * s27.2.toNat = s21.1.toNat + p26.1.toNat ∧ s27.2.toNat ≤ 1 := addZc _ _
  have e_p28 : (p28.2.toNat : ℤ) + 18446744073709551616 * p28.1.toNat = x.w2.toNat * mu.w3.toNat := mulZ _ _
  have e_s29 : (s29.1.toNat : ℤ) + 18446744073709551616 * s29.2.toNat = s23.1.toNat + p28.2.toNat + s27.2.toNat ∧ s29.2.toNat ≤ 1 := addZ _ _ _ e_s27.2
  have e_s30 : (s30.1.toNat : ℤ) + 18446744073709551616 * s30.2.toNat = s24.1.toNat + p28.1.toNat + s29.2.toNat ∧ s30.2.toNat ≤ 1 := addZ _ _ _ e_s29.2
  have e_p31 : (p31.2.toNat : ℤ) + 18446744073709551616 * p31.1.toNat = x.w4.toNat * mu.w3.toNat := mulZ _ _
  have e_s32 : (s32.1.toNat : ℤ) + 18446744073709551616 * s32.2.toNat = s25.1.toNat + p31.2.toNat + s30.2.toNat ∧ s32.2.toNat ≤ 1 := addZ _ _ _ e_s30.2
  have e_s33 : (s33.1.toNat : ℤ) + 18446744073709551616 * s33.2.toNat = p31.1.toNat + s32.2.toNat ∧ s33.2.toNat ≤ 1 := addZ0 _ _ e_s32.2
  have e_p34 : (p34.2.toNat : ℤ) + 18446744073709551616 * p34.1.toNat = x.w1.toNat * mu.w3.toNat := mulZ _ _
  have e_s35 : (s35.1.toNat : ℤ) + 18446744073709551616 * s35.2.toNat = s27.1.toNat + p34.2.toNat ∧ s35.2.toNat ≤ 1 := addZc _ _
  have e_s36 : (s36.1.toNat : ℤ) + 18446744073709551616 * s36.2.toNat = s29.1.toNat + p34.1.toNat + s35.2.toNat ∧ s36.2.toNat ≤ 1 := addZ _ _ _ e_s35.2
  have e_p37 : (p37.2.toNat : ℤ) + 18446744073709551616 * p37.1.toNat = x.w3.toNat * mu.w3.toNat := mulZ _ _
  have e_s38 : (s38.1.toNat : ℤ) + 18446744073709551616 * s38.2.toNat = s30.1.toNat + p37.2.toNat + s36.2.toNat ∧ s38.2.toNat ≤ 1 := addZ _ _ _ e_s36.2
  have e_s39 : (s39.1.toNat : ℤ) + 18446744073709551616 * s39.2.toNat = s32.1.toNat + p37.1.toNat + s38.2.toNat ∧ s39.2.toNat ≤ 1 := addZ _ _ _ e_s38.2
  have e_s40 : (s40.1.toNat : ℤ) + 18446744073709551616 * s40.2.toNat = s33.1.toNat + s39.2.toNat ∧ s40.2.toNat ≤ 1 := addZ0 _ _ e_s39.2
  have e_p41 : (p41.2.toNat : ℤ) + 18446744073709551616 * p41.1.toNat = x.w0.toNat * mu.w4.toNat := mulZ _ _
  have e_s42 : (s42.1.toNat : ℤ) + 18446744073709551616 * s42.2.toNat = s35.1.toNat + p41.2.toNat ∧ s42.2.toNat ≤ 1 := addZc _ _
  have e_s43 : (s43.1.toNat : ℤ) + 18446744073709551616 * s43.2.toNat = s36.1.toNat + p41.1.toNat + s42.2.toNat ∧ s43.2.toNat ≤ 1 := addZ _ _ _ e_s42.2
  have e_p44 : (p44.2.toNat : ℤ) + 18446744073709551616 * p44.1.toNat = x.w2.toNat * mu.w4.toNat := mulZ _ _
  have e_s45 : (s45.1.toNat : ℤ) + 18446744073709551616 * s45.2.toNat = s38.1.toNat + p44.2.toNat + s43.2.toNat ∧ s45.2.toNat ≤ 1 := addZ _ _ _ e_s43.2
  have e_s46 : (s46.1.toNat : ℤ) + 18446744073709551616 * s46.2.toNat = s39.1.toNat + p44.1.toNat + s45.2.toNat ∧ s46.2.toNat ≤ 1 := addZ _ _ _ e_s45.2
  have e_p47 : (p47.2.toNat : ℤ) + 18446744073709551616 * p47.1.toNat = x.w4.toNat * mu.w4.toNat := mulZ _ _
  have e_s48 : (s48.1.toNat : ℤ) + 18446744073709551616 * s48.2.toNat = s40.1.toNat + p47.2.toNat + s46.2.toNat ∧ s48.2.toNat ≤ 1 := addZ _ _ _ e_s46.2
  have e_s49 : (s49.1.toNat : ℤ) + 18446744073709551616 * s49.2.toNat = p47.1.toNat + s48.2.toNat ∧ s49.2.toNat ≤ 1 := addZ0 _ _ e_s48.2
  have e_p50 : (p50.2.toNat : ℤ) + 18446744073709551616 * p50.1.toNat = x.w1.toNat * mu.w4.toNat := mulZ _ _
  have e_s51 : (s51.1.toNat : ℤ) + 18446744073709551616 * s51.2.toNat = s43.1.toNat + p50.2.toNat ∧ s51.2.toNat ≤ 1 := addZc _ _
  have e_s52 : (s52.1.toNat : ℤ) + 18446744073709551616 * s52.2.toNat = s45.1.toNat + p50.1.toNat + s51.2.toNat ∧ s52.2.toNat ≤ 1 := addZ _ _ _ e_s51.2
  have e_p53 : (p53.2.toNat : ℤ) + 18446744073709551616 * p53.1.toNat = x.w3.toNat * mu.w4.toNat := mulZ _ _
  have e_s54 : (s54.1.toNat : ℤ) + 18446744073709551616 * s54.2.toNat = s46.1.toNat + p53.2.toNat + s52.2.toNat ∧ s54.2.toNat ≤ 1 := addZ _ _ _ e_s52.2
  have e_s55 : (s55.1.toNat : ℤ) + 18446744073709551616 * s55.2.toNat = s48.1.toNat + p53.1.toNat + s54.2.toNat ∧ s55.2.toNat ≤ 1 := addZ _ _ _ e_s54.2
  have e_s56 : (s56.1.toNat : ℤ) + 18446744073709551616 * s56.2.toNat = s49.1.toNat + s55.2.toNat ∧ s56.2.toNat ≤ 1 := addZ0 _ _ e_s55.2
  clear_value p1 p2 s3 s4 p5 s6 p7 s8 s9 p10 s11 s12 s13 p14 s15 s16 p17 s18 s19 p20 s21 p22 s23 s24 s25 p26 s27 p28 s29 s30 p31 s32 s33 p34 s35 s36 p37 s38 s39 s40 p41 s42 s43 p44 s45 s46 p47 s48 s49 p50 s51 s52 p53 s54 s55 s56
  have h := barrettQ_core wL wU wL wU wL wU wL wU wL wU wL wU wL wU wL wU wL wU wL wU e_p1 wL wU e_p2 e_s3.1 wL e_s4.1 wL wL e_p5 wL wU e_s6.1 wL e_p7 e_s8.1 wL e_s9.1 wL wL e_p10 e_s11.1 wL e_s12.1 wL e_s13.1 wL wL e_p14 e_s15.1 wL e_s16.1 wL e_p17 e_s18.1 wL e_s19.1 wL wL e_p20 wL wU e_s21.1 wL e_p22 e_s23.1 wL e_s24.1 wL e_s25.1 wL wL e_p26 wL wU e_s27.1 wL e_p28 e_s29.1 wL e_s30.1 wL e_p31 e_s32.1 wL e_s33.1 wL wL e_p34 e_s35.1 wL e_s36.1 wL e_p37 e_s38.1 wL e_s39.1 wL e_s40.1 wL wL e_p41 e_s42.1 wL wU e_s43.1 wL e_p44 e_s45.1 wL e_s46.1 wL e_p47 e_s48.1 wL e_s49.1 wL wL e_p50 e_s51.1 wL e_s52.1 wL e_p53 e_s54.1 wL e_s55.1 wL e_s56.1 wL wL
  rw [Words5.toZ, Words5.toZ x, Words5.toZ mu]
  exact h

theorem barrettR_core {m_w0 m_w1 m_w2 m_w3 q_w0 q_w1 q_w2 q_w3 q_w4 p1h p1l p2h p2l s3v s3c p4h p4l s5v s5c p6h p6l s7v s7c p8h p8l s9v s9c s10v s10c p11h p11l s12v s12c p13h p13l s14v s14c s15v s15c p16h p16l s17v s17c s18v s18c p19h p19l s20v s20c p21h p21l s22v s22c p23h p23l s24v s24c s25v s25c p26h p26l s27v s27c p28h p28l s29v s29c s30v s30c p31h p31l s32v s32c s33v s33c : ℤ}
    (l_m_w0 : 0 ≤ m_w0)
    (u_m_w0 : m_w0 ≤ 18446744073709551615)
    (l_m_w1 : 0 ≤ m_w1)
    (u_m_w1 : m_w1 ≤ 18446744073709551615)
    (l_m_w2 : 0 ≤ m_w2)
    (u_m_w2 : m_w2 ≤ 18446744073709551615)
    (l_m_w3 : 0 ≤ m_w3)
    (u_m_w3 : m_w3 ≤ 18446744073709551615)
    (l_q_w0 : 0 ≤ q_w0)
    (u_q_w0 : q_w0 ≤ 18446744073709551615)
    (l_q_w1 : 0 ≤ q_w1)
    (u_q_w1 : q_w1 ≤ 18446744073709551615)
    (l_q_w2 : 0 ≤ q_w2)
    (u_q_w2 : q_w2 ≤ 18446744073709551615)
    (l_q_w3 : 0 ≤ q_w3)
    (u_q_w3 : q_w3 ≤ 18446744073709551615)
    (l_q_w4 : 0 ≤ q_w4)
    (u_q_w4 : q_w4 ≤ 18446744073709551615)
    (e_p1 : p1l + 18446744073709551616 * p1h = q_w0 * m_w3)
    (e_p2 : p2l + 18446744073709551616 * p2h = q_w1 * m_w3)
    (e_s3 : s3v + 18446744073709551616 * s3c = p1h + p2l)
    (e_p4 : p4l + 18446744073709551616 * p4h = q_w0 * m_w2)
    (e_s5 : s5v + 18446744073709551616 * s5c = p1l + p4h)
    (e_p6 : p6l + 18446744073709551616 * p6h = q_w2 * m_w2)
    (e_s7 : s7v + 18446744073709551616 * s7c = s3v + p6l + s5c)
    (e_p8 : p8l + 18446744073709551616 * p8h = q_w1 * m_w2)
    (e_s9 : s9v + 18446744073709551616 * s9c = s5v + p8l)
    (e_s10 : s10v + 18446744073709551616 * s10c = s7v + p8h + s9c)
    (e_p11 : p11l + 18446744073709551616 * p11h = q_w0 * m_w1)
    (e_s12 : s12v + 18446744073709551616 * s12c = p4l + p11h)
    (e_p13 : p13l + 18446744073709551616 * p13h = q_w2 * m_w1)
    (e_s14 : s14v + 18446744073709551616 * s14c = s9v + p13l + s12c)
    (e_s15 : s15v + 18446744073709551616 * s15c = s10v + p13h + s14c)
    (e_p16 : p16l + 18446744073709551616 * p16h = q_w1 * m_w1)
    (e_s17 : s17v + 18446744073709551616 * s17c = s12v + p16l)
    (e_s18 : s18v + 18446744073709551616 * s18c = s14v + p16h + s17c)
    (e_p19 : p19l + 18446744073709551616 * p19h = q_w3 * m_w1)
    (e_s20 : s20v + 18446744073709551616 * s20c = s15v + p19l + s18c)
    (e_p21 : p21l + 18446744073709551616 * p21h = q_w0 * m_w0)
    (e_s22 : s22v + 18446744073709551616 * s22c = p11l + p21h)
    (e_p23 : p23l + 18446744073709551616 * p23h = q_w2 * m_w0)
    (e_s24 : s24v + 18446744073709551616 * s24c = s17v + p23l + s22c)
    (e_s25 : s25v + 18446744073709551616 * s25c = s18v + p23h + s24c)
    (e_p26 : p26l + 18446744073709551616 * p26h = q_w4 * m_w0)
    (e_s27 : s27v + 18446744073709551616 * s27c = s20v + p26l + s25c)
    (e_p28 : p28l + 18446744073709551616 * p28h = q_w1 * m_w0)
    (e_s29 : s29v + 18446744073709551616 * s29c = s22v + p28l)
    (e_s30 : s30v + 18446744073709551616 * s30c = s24v + p28h + s29c)
    (e_p31 : p31l + 18446744073709551616 * p31h = q_w3 * m_w0)
    (e_s32 : s32v + 18446744073709551616 * s32c = s25v + p31l + s30c)
    (e_s33 : s33v + 18446744073709551616 * s33c = s27v + p31h + s32c) :
    ∃ k : ℤ, p21l + 18446744073709551616 * s29v + 340282366920938463463374607431768211456 * s30v + 6277101735386680763835789423207666416102355444464034512896 * s32v + 115792089237316195423570985008687907853269984665640564039457584007913129639936 * s33v + 2135987035920910082395021706169552114602704522356652769947041607822219725780640550022962086936576 * k = (q_w0 + 18446744073709551616 * q_w1 + 340282366920938463463374607431768211456 * q_w2 + 6277101735386680763835789423207666416102355444464034512896 * q_w3 + 115792089237316195423570985008687907853269984665640564039457584007913129639936 * q_w4) * (m_w0 + 18446744073709551616 * m_w1 + 340282366920938463463374607431768211456 * m_w2 + 6277101735386680763835789423207666416102355444464034512896 * m_w3) := by
  have l_q_w0_m_w0 : 0 ≤ q_w0 * m_w0 := mul_nonneg l_q_w0 l_m_w0
  have u_q_w0_m_w0 : q_w0 * m_w0 ≤ 340282366920938463426481119284349108225 := prod_le l_m_w0 u_q_w0 u_m_w0
  have l_q_w0_m_w1 : 0 ≤ q_w0 * m_w1 := mul_nonneg l_q_w0 l_m_w1
  have u_q_w0_m_w1 : q_w0 * m_w1 ≤ 340282366920938463426481119284349108225 := prod_le l_m_w1 u_q_w0 u_m_w1
  have l_q_w0_m_w2 : 0 ≤ q_w0 * m_w2 := mul_nonneg l_q_w0 l_m_w2
  have u_q_w0_m_w2 : q_w0 * m_w2 ≤ 340282366920938463426481119284349108225 := prod_le l_m_w2 u_q_w0 u_m_w2
  have l_q_w0_m_w3 : 0 ≤ q_w0 * m_w3 := mul_nonneg l_q_w0 l_m_w3
  have u_q_w0_m_w3 : q_w0 * m_w3 ≤ 340282366920938463426481119284349108225 := prod_le l_m_w3 u_q_w0 u_m_w3
  have l_q_w1_m_w0 : 0 ≤ q_w1 * m_w0 := mul_nonneg l_q_w1 l_m_w0
  have u_q_w1_m_w0 : q_w1 * m_w0 ≤ 340282366920938463426481119284349108225 := prod_le l_m_w0 u_q_w1 u_m_w0
  have l_q_w1_m_w1 : 0 ≤ q_w1 * m_w1 := mul_nonneg l_q_w1 l_m_w1
  have u_q_w1_m_w1 : q_w1 * m_w1 ≤ 340282366920938463426481119284349108225 := prod_le l_m_w1 u_q_w1 u_m_w1
  have l_q_w1_m_w2 : 0 ≤ q_w1 * m_w2 := mul_nonneg l_q_w1 l_m_w2
  have u_q_w1_m_w2 : q_w1 * m_w2 ≤ 340282366920938463426481119284349108225 := prod_le l_m_w2 u_q_w1 u_m_w2
  have l_q_w1_m_w3 : 0 ≤ q_w1 * m_w3 := mul_nonneg l_q_w1 l_m_w3
  have u_q_w1_m_w3 : q_w1 * m_w3 ≤ 340282366920938463426481119284349108225 := prod_le l_m_w3 u_q_w1 u_m_w3
  have l_q_w2_m_w0 : 0 ≤ q_w2 * m_w0 := mul_nonneg l_q_w2 l_m_w0
  have u_q_w2_m_w0 : q_w2 * m_w0 ≤ 340282366920938463426481119284349108225 := prod_le l_m_w0 u_q_w2 u_m_w0
  have l_q_w2_m_w1 : 0 ≤ q_w2 * m_w1 := mul_nonneg l_q_w2 l_m_w1
  have u_q_w2_m_w1 : q_w2 * m_w1 ≤ 340282366920938463426481119284349108225 := prod_le l_m_w1 u_q_w2 u_m_w1
  have l_q_w2_m_w2 : 0 ≤ q_w2 * m_w2 := mul_nonneg l_q_w2 l_m_w2
  have u_q_w2_m_w2 : q_w2 * m_w2 ≤ 340282366920938463426481119284349108225 := prod_le l_m_w2 u_q_w2 u_m_w2
  have l_q_w3_m_w0 : 0 ≤ q_w3 * m_w0 := mul_nonneg l_q_w3 l_m_w0
  have u_q_w3_m_w0 : q_w3 * m_w0 ≤ 340282366920938463426481119284349108225 := prod_le l_m_w0 u_q_w3 u_m_w0
  have l_q_w3_m_w1 : 0 ≤ q_w3 * m_w1 := mul_nonneg l_q_w3 l_m_w1
  have u_q_w3_m_w1 : q_w3 * m_w1 ≤ 340282366920938463426481119284349108225 := prod_le l_m_w1 u_q_w3 u_m_w1
  have l_q_w4_m_w0 : 0 ≤ q_w4 * m_w0 := mul_nonneg l_q_w4 l_m_w0
  have u_q_w4_m_w0 : q_w4 * m_w0 ≤ 340282366920938463426481119284349108225 := prod_le l_m_w0 u_q_w4 u_m_w0
  exact ⟨1 * s33c + 1 * s27c + 1 * p26h + 1 * s20c + 1 * p19h + 1 * s15c + 1 * s10c + 1 * s7c + 1 * p6h + 1 * s3c + 1 * p2h + 1 * (q_w2 * m_w3) + 1 * (q_w3 * m_w2) + 18446744073709551616 * (q_w3 * m_w3) + 1 * (q_w4 * m_w1) + 18446744073709551616 * (q_w4 * m_w2) + 340282366920938463463374607431768211456 * (q_w4 * m_w3),
    by linear_combination 115792089237316195423570985008687907853269984665640564039457584007913129639936 * e_s33 + 6277101735386680763835789423207666416102355444464034512896 * e_s32 + 6277101735386680763835789423207666416102355444464034512896 * e_p31 + 340282366920938463463374607431768211456 * e_s30 + 18446744073709551616 * e_s29 + 18446744073709551616 * e_p28 + 115792089237316195423570985008687907853269984665640564039457584007913129639936 * e_s27 + 115792089237316195423570985008687907853269984665640564039457584007913129639936 * e_p26 + 6277101735386680763835789423207666416102355444464034512896 * e_s25 + 340282366920938463463374607431768211456 * e_s24 + 340282366920938463463374607431768211456 * e_p23 + 18446744073709551616 * e_s22 + 1 * e_p21 + 115792089237316195423570985008687907853269984665640564039457584007913129639936 * e_s20 + 115792089237316195423570985008687907853269984665640564039457584007913129639936 * e_p19 + 6277101735386680763835789423207666416102355444464034512896 * e_s18 + 340282366920938463463374607431768211456 * e_s17 + 340282366920938463463374607431768211456 * e_p16 + 115792089237316195423570985008687907853269984665640564039457584007913129639936 * e_s15 + 6277101735386680763835789423207666416102355444464034512896 * e_s14 + 6277101735386680763835789423207666416102355444464034512896 * e_p13 + 340282366920938463463374607431768211456 * e_s12 + 18446744073709551616 * e_p11 + 115792089237316195423570985008687907853269984665640564039457584007913129639936 * e_s10 + 6277101735386680763835789423207666416102355444464034512896 * e_s9 + 6277101735386680763835789423207666416102355444464034512896 * e_p8 + 115792089237316195423570985008687907853269984665640564039457584007913129639936 * e_s7 + 115792089237316195423570985008687907853269984665640564039457584007913129639936 * e_p6 + 6277101735386680763835789423207666416102355444464034512896 * e_s5 + 340282366920938463463374607431768211456 * e_p4 + 115792089237316195423570985008687907853269984665640564039457584007913129639936 * e_s3 + 115792089237316195423570985008687907853269984665640564039457584007913129639936 * e_p2 + 6277101735386680763835789423207666416102355444464034512896 * e_p1⟩

theorem barrettR_spec (q : Words5) (m : U256) :
    ∃ k : ℤ, ((barrettR q m).toNat : ℤ) + 2135987035920910082395021706169552114602704522356652769947041607822219725780640550022962086936576 * k = q.toNat * m.toNat := by
  unfold barrettR
  extract_lets p1 p2 s3 p4 s5 p6 s7 p8 s9 s10 p11 s12 p13 s14 s15 p16 s17 s18 p19 s20 p21 s22 p23 s24 s25 p26 s27 p28 s29 s30 p31 s32 s33
  have e_p1 : (p1.2.toNat : ℤ) + 18446744073709551616 * p1.1.toNat = q.w0.toNat * m.w3.toNat := mulZ _ _
  have e_p2 : (p2.2.toNat : ℤ) + 18446744073709551616 * p2.1.toNat = q.w1.toNat * m.w3.toNat := mulZ _ _
  have e_s3 : (s3.1.toNat : ℤ) + 18446744073709551616 * s3.2.toNat = p1.1.toNat + p2.2.toNat ∧ s3.2.toNat ≤ 1 := addZc _ _
  have e_p4 : (p4.2.toNat : ℤ) + 18446744073709551616 * p4.1.toNat = q.w0.toNat * m.w2.toNat := mulZ _ _
  have e_s5 : (s5.1.toNat : ℤ) + 18446744073709551616 * s5.2.toNat = p1.2.toNat + p4.1.toNat ∧ s5.2.toNat ≤ 1 := addZc _ _
  have e_p6 : (p6.2.toNat : ℤ) + 18446744073709551616 * p6.1.toNat = q.w2.toNat * m.w2.toNat := mulZ _ _
  have e_s7 : (s7.1.toNat : ℤ) + 18446744073709551616 * s7.2.toNat = s3.1.toNat + p6.2.toNat + s5.2.toNat ∧ s7.2.toNat ≤ 1 := addZ _ _ _ e_s5.2
  have e_p8 : (p8.2.toNat : ℤ) + 18446744073709551616 * p8.1.toNat = q.w1.toNat * m.w2.toNat := mulZ _ _
  have e_s9 : (s9.1.toNat : ℤ) + 18446744073709551616 * s9.2.toNat = s5.1.toNat + p8.2.toNat ∧ s9.2.toNat ≤ 1 := addZc _ _
  have e_s10 : (s10.1.toNat : ℤ) + 18446744073709551616 * s10.2.toNat = s7.1.toNat + p8.1.toNat + s9.2.toNat ∧ s10.2.toNat ≤ 1 := addZ _ _ _ e_s9.2
  have e_p11 : (p11.2.toNat : ℤ) + 18446744073709551616 * p11.1.toNat = q.w0.toNat * m.w1.toNat := mulZ _ _
  have e_s12 : (s12.1.toNat : ℤ) + 18446744073709551616 * s12.2.toNat = p4.2.toNat + p11.1.toNat ∧ s12.2.toNat ≤ 1 := addZc _ _
  have e_p13 : (p13.2.toNat : ℤ) + 18446744073709551616 * p13.1.toNat = q.w2.toNat * m.w1.toNat := mulZ _ _
  have e_s14 : (s14.1.toNat : ℤ) + 18446744073709551616 * s14.2.toNat = s9.1.toNat + p13.2.toNat + s12.2.toNat ∧ s14.2.toNat ≤ 1 := addZ _ _ _ e_s12.2
  have e_s15 : (s15.1.toNat : ℤ) + 18446744073709551616 * s15.2.toNat = s10.1.toNat + p13.1.toNat + s14.2.toNat ∧ s15.2.toNat ≤ 1 := addZ _ _ _ e_s14.2
  have e_p16 : (p16.2.toNat : ℤ) + 18446744073709551616 * p16.1.toNat = q.w1.toNat * m.w1.toNat := mulZ _ _
  have e_s17 : (s17.1.toNat : ℤ) + 18446744073709551616 * s17.2.toNat = s12.1.toNat + p16.2.toNat ∧ s17.2.toNat ≤ 1 := addZc _ _
  have e_s18 : (s18.1.toNat : ℤ) + 18446744073709551616 * s18.2.toNat = s14.1.toNat + p16.1.toNat + s17.2.toNat ∧ s18.2.toNat ≤ 1 := addZ _ _ _ e_s17.2
  have e_p19 : (p19.2.toNat : ℤ) + 18446744073709551616 * p19.1.toNat = q.w3.toNat * m.w1.toNat := mulZ _ _
  have e_s20 : (s20.1.toNat : ℤ) + 18446744073709551616 * s20.2.toNat = s15.1.toNat + p19.2.toNat + s18.2.toNat ∧ s20.2.toNat ≤ 1 := addZ _ _ _ e_s18.2
  have e_p21 : (p21.2.toNat : ℤ) + 18446744073709551616 * p21.1.toNat = q.w0.toNat * m.w0.toNat := mulZ _ _
  have e_s22 : (s22.1.toNat : ℤ) + 18446744073709551616 * s22.2.toNat = p11.2.toNat + p21.1.toNat ∧ s22.2.toNat ≤ 1 := addZc _ _
  have e_p23 : (p23.2.toNat : ℤ) + 18446744073709551616 * p23.1.toNat = q.w2.toNat * m.w0.toNat := mulZ _ _
  have e_s24 : (s24.1.toNat : ℤ) + 18446744073709551616 * s24.2.toNat = s17.1.toNat + p23.2.toNat + s22.2.toNat ∧ s24.2.toNat ≤ 1 := addZ _ _ _ e_s22.2
  have e_s25 : (s25.1.toNat : ℤ) + 18446744073709551616 * s25.2.toNat = s18.1.toNat + p23.1.toNat + s24.2.toNat ∧ s25.2.toNat ≤ 1 := addZ _ _ _ e_s24.2
  have e_p26 : (p26.2.toNat : ℤ) + 18446744073709551616 * p26.1.toNat = q.w4.toNat * m.w0.toNat := mulZ _ _
  have e_s27 : (s27.1.toNat : ℤ) + 18446744073709551616 * s27.2.toNat = s20.1.toNat + p26.2.toNat + s25.2.toNat ∧ s27.2.toNat ≤ 1 := addZ _ _ _ e_s25.2
  have e_p28 : (p28.2.toNat : ℤ) + 18446744073709551616 * p28.1.toNat = q.w1.toNat * m.w0.toNat := mulZ _ _
  have e_s29 : (s29.1.toNat : ℤ) + 18446744073709551616 * s29.2.toNat = s22.1.toNat + p28.2.toNat ∧ s29.2.toNat ≤ 1 := addZc _ _
  have e_s30 : (s30.1.toNat : ℤ) + 18446744073709551616 * s30.2.toNat = s24.1.toNat + p28.1.toNat + s29.2.toNat ∧ s30.2.toNat ≤ 1 := addZ _ _ _ e_s29.2
  have e_p31 : (p31.2.toNat : ℤ) + 18446744073709551616 * p31.1.toNat = q.w3.toNat * m.w0.toNat := mulZ _ _
  have e_s32 : (s32.1.toNat : ℤ) + 18446744073709551616 * s32.2.toNat = s25.1.toNat + p31.2.toNat + s30.2.toNat ∧ s32.2.toNat ≤ 1 := addZ _ _ _ e_s30.2
  have e_s33 : (s33.1.toNat : ℤ) + 18446744073709551616 * s33.2.toNat = s27.1.toNat + p31.1.toNat + s32.2.toNat ∧ s33.2.toNat ≤ 1 := addZ _ _ _ e_s32.2
  clear_value p1 p2 s3 p4 s5 p6 s7 p8 s9 s10 p11 s12 p13 s14 s15 p16 s17 s18 p19 s20 p21 s22 p23 s24 s25 p26 s27 p28 s29 s30 p31 s32 s33
  have h := barrettR_core wL wU wL wU wL wU wL wU wL wU wL wU wL wU wL wU wL wU e_p1 e_p2 e_s3.1 e_p4 e_s5.1 e_p6 e_s7.1 e_p8 e_s9.1 e_s10.1 e_p11 e_s12.1 e_p13 e_s14.1 e_s15.1 e_p16 e_s17.1 e_s18.1 e_p19 e_s20.1 e_p21 e_s22.1 e_p23 e_s24.1 e_s25.1 e_p26 e_s27.1 e_p28 e_s29.1 e_s30.1 e_p31 e_s32.1 e_s33.1
  rw [Words5.toZ, Words5.toZ q, U256.toZ m]
  exact h

theorem recipMul2_core {a_w0 a_w1 y_w2 y_w3 p2h p2l p3h p3l p4h p4l p5h p5l s6v s6c s7v s7c s8v s8c s9v s9c s10v s10c s11v s11c : ℤ}
    (l_a_w0 : 0 ≤ a_w0)
    (u_a_w0 : a_w0 ≤ 18446744073709551615)
    (l_a_w1 : 0 ≤ a_w1)
    (u_a_w1 : a_w1 ≤ 18446744073709551615)
    (l_y_w2 : 0 ≤ y_w2)
    (u_y_w2 : y_w2 ≤ 18446744073709551615)
    (l_y_w3 : 0 ≤ y_w3)
    (u_y_w3 : y_w3 ≤ 18446744073709551615)
    (e_p2 : p2l + 18446744073709551616 * p2h = a_w0 * y_w2)
    (l_p2l : 0 ≤ p2l)
    (u_p2l : p2l ≤ 18446744073709551615)
    (e_p3 : p3l + 18446744073709551616 * p3h = a_w0 * y_w3)
    (e_p4 : p4l + 18446744073709551616 * p4h = a_w1 * y_w2)
    (e_p5 : p5l + 18446744073709551616 * p5h = a_w1 * y_w3)
    (e_s6 : s6v + 18446744073709551616 * s6c = p2h + p3l)
    (l_s6v : 0 ≤ s6v)
    (e_s7 : s7v + 18446744073709551616 * s7c = p5l + p3h + s6c)
    (l_s7v : 0 ≤ s7v)
    (e_s8 : s8v + 18446744073709551616 * s8c = p5h + s7c)
    (l_s8v : 0 ≤ s8v)
    (l_s8c : 0 ≤ s8c)
    (e_s9 : s9v + 18446744073709551616 * s9c = s6v + p4l)
    (l_s9v : 0 ≤ s9v)
    (u_s9v : s9v ≤ 18446744073709551615)
    (e_s10 : s10v + 18446744073709551616 * s10c = s7v + p4h + s9c)
    (l_s10v : 0 ≤ s10v)
    (e_s11 : s11v + 18446744073709551616 * s11c = s8v + s10c)
    (l_s11v : 0 ≤ s11v)
    (l_s11c : 0 ≤ s11c) :
    340282366920938463463374607431768211456 * (s10v + 18446744073709551616 * s11v) ≤ (a_w0 + 18446744073709551616 * a_w1) * (y_w2 + 18446744073709551616 * y_w3) ∧ (a_w0 + 18446744073709551616 * a_w1) * (y_w2 + 18446744073709551616 * y_w3) < 340282366920938463463374607431768211456 * (s10v + 18446744073709551616 * s11v + 1) := by
  have l_a_w0_y_w2 : 0 ≤ a_w0 * y_w2 := mul_nonneg l_a_w0 l_y_w2
  have u_a_w0_y_w2 : a_w0 * y_w2 ≤ 340282366920938463426481119284349108225 := prod_le l_y_w2 u_a_w0 u_y_w2
  have l_a_w0_y_w3 : 0 ≤ a_w0 * y_w3 := mul_nonneg l_a_w0 l_y_w3
  have u_a_w0_y_w3 : a_w0 * y_w3 ≤ 340282366920938463426481119284349108225 := prod_le l_y_w3 u_a_w0 u_y_w3
  have l_a_w1_y_w2 : 0 ≤ a_w1 * y_w2 := mul_nonneg l_a_w1 l_y_w2
  have u_a_w1_y_w2 : a_w1 * y_w2 ≤ 340282366920938463426481119284349108225 := prod_le l_y_w2 u_a_w1 u_y_w2
  have l_a_w1_y_w3 : 0 ≤ a_w1 * y_w3 := mul_nonneg l_a_w1 l_y_w3
  have u_a_w1_y_w3 : a_w1 * y_w3 ≤ 340282366920938463426481119284349108225 := prod_le l_y_w3 u_a_w1 u_y_w3
  have z_s8 : s8c = 0 := by
    have e : 115792089237316195423570985008687907853269984665640564039457584007913129639936 * s8c + 6277101735386680763835789423207666416102355444464034512896 * s8v + 340282366920938463463374607431768211456 * s7v + 18446744073709551616 * s6v + 1 * p2l = 340282366920938463463374607431768211456 * (a_w1 * y_w3) + 18446744073709551616 * (a_w0 * y_w3) + 1 * (a_w0 * y_w2) := by
      linear_combination 6277101735386680763835789423207666416102355444464034512896 * e_s8 + 340282366920938463463374607431768211456 * e_s7 + 18446744073709551616 * e_s6 + 340282366920938463463374607431768211456 * e_p5 + 18446744073709551616 * e_p3 + 1 * e_p2
    have : s8c < 1 := by linarith only [e, l_s8c, l_s8v, l_s7v, l_s6v, l_p2l, u_a_w1_y_w3, u_a_w0_y_w3, u_a_w0_y_w2]
    omega
  have z_s11 : s11c = 0 := by
    have e : 115792089237316195423570985008687907853269984665640564039457584007913129639936 * s11c + 6277101735386680763835789423207666416102355444464034512896 * s11v + 340282366920938463463374607431768211456 * s10v + 18446744073709551616 * s9v + 1 * p2l = 340282366920938463463374607431768211456 * (a_w1 * y_w3) + 18446744073709551616 * (a_w1 * y_w2) + 18446744073709551616 * (a_w0 * y_w3) + 1 * (a_w0 * y_w2) := by
      linear_combination 6277101735386680763835789423207666416102355444464034512896 * e_s11 + 340282366920938463463374607431768211456 * e_s10 + 18446744073709551616 * e_s9 + 6277101735386680763835789423207666416102355444464034512896 * e_s8 + 340282366920938463463374607431768211456 * e_s7 + 18446744073709551616 * e_s6 + 340282366920938463463374607431768211456 * e_p5 + 18446744073709551616 * e_p4 + 18446744073709551616 * e_p3 + 1 * e_p2 + -115792089237316195423570985008687907853269984665640564039457584007913129639936 * z_s8
    have : s11c < 1 := by linarith only [e, l_s11c, l_s11v, l_s10v, l_s9v, l_p2l, u_a_w1_y_w3, u_a_w1_y_w2, u_a_w0_y_w3, u_a_w0_y_w2]
    omega
  have e : 340282366920938463463374607431768211456 * s10v + 6277101735386680763835789423207666416102355444464034512896 * s11v + 18446744073709551616 * s9v + 1 * p2l = 340282366920938463463374607431768211456 * (a_w1 * y_w3) + 18446744073709551616 * (a_w1 * y_w2) + 18446744073709551616 * (a_w0 * y_w3) + 1 * (a_w0 * y_w2) := by
    linear_combination 6277101735386680763835789423207666416102355444464034512896 * e_s11 + 340282366920938463463374607431768211456 * e_s10 + 18446744073709551616 * e_s9 + 6277101735386680763835789423207666416102355444464034512896 * e_s8 + 340282366920938463463374607431768211456 * e_s7 + 18446744073709551616 * e_s6 + 340282366920938463463374607431768211456 * e_p5 + 18446744073709551616 * e_p4 + 18446744073709551616 * e_p3 + 1 * e_p2 + -115792089237316195423570985008687907853269984665640564039457584007913129639936 * z_s11 + -115792089237316195423570985008687907853269984665640564039457584007913129639936 * z_s8
  have f : (a_w0 + 18446744073709551616 * a_w1) * (y_w2 + 18446744073709551616 * y_w3) = 1 * (a_w0 * y_w2) + 18446744073709551616 * (a_w0 * y_w3) + 18446744073709551616 * (a_w1 * y_w2) + 340282366920938463463374607431768211456 * (a_w1 * y_w3) := by ring
  rw [f]
  constructor
  · linarith only [e, l_s9v, l_p2l]
  · linarith only [e, u_s9v, u_p2l]

theorem recipMul2_spec (r1 : Word) (y : U256) :
    340282366920938463463374607431768211456 * ((recipMul2 r1 y).toNat : ℤ) ≤ r1.toNat * r1.toNat * (y.w2.toNat + 18446744073709551616 * y.w3.toNat) ∧
    (r1.toNat * r1.toNat * (y.w2.toNat + 18446744073709551616 * y.w3.toNat) : ℤ) < 340282366920938463463374607431768211456 * ((recipMul2 r1 y).toNat + 1) := by
  unfold recipMul2
  extract_lets p1 p2 p3 p4 p5 s6 s7 s8 s9 s10 s11
  have e_p1 : (p1.2.toNat : ℤ) + 18446744073709551616 * p1.1.toNat = r1.toNat * r1.toNat := mulZ _ _
  have e_p2 : (p2.2.toNat : ℤ) + 18446744073709551616 * p2.1.toNat = p1.2.toNat * y.w2.toNat := mulZ _ _
  have e_p3 : (p3.2.toNat : ℤ) + 18446744073709551616 * p3.1.toNat = p1.2.toNat * y.w3.toNat := mulZ _ _
  have e_p4 : (p4.2.toNat : ℤ) + 18446744073709551616 * p4.1.toNat = p1.1.toNat * y.w2.toNat := mulZ _ _
  have e_p5 : (p5.2.toNat : ℤ) + 18446744073709551616 * p5.1.toNat = p1.1.toNat * y.w3.toNat := mulZ _ _
  have e_s6 : (s6.1.toNat : ℤ) + 18446744073709551616 * s6.2.toNat = p2.1.toNat + p3.2.toNat ∧ s6.2.toNat ≤ 1 := addZc _ _
  have e_s7 : (s7.1.toNat : ℤ) + 18446744073709551616 * s7.2.toNat = p5.2.toNat + p3.1.toNat + s6.2.toNat ∧ s7.2.toNat ≤ 1 := addZ _ _ _ e_s6.2
  have e_s8 : (s8.1.toNat : ℤ) + 18446744073709551616 * s8.2.toNat = p5.1.toNat + s7.2.toNat ∧ s8.2.toNat ≤ 1 := addZ0 _ _ e_s7.2
  have e_s9 : (s9.1.toNat : ℤ) + 18446744073709551616 * s9.2.toNat = s6.1.toNat + p4.2.toNat ∧ s9.2.toNat ≤ 1 := addZc _ _
  have e_s10 : (s10.1.toNat : ℤ) + 18446744073709551616 * s10.2.toNat = s7.1.toNat + p4.1.toNat + s9.2.toNat ∧ s10.2.toNat ≤ 1 := addZ _ _ _ e_s9.2
  have e_s11 : (s11.1.toNat : ℤ) + 18446744073709551616 * s11.2.toNat = s8.1.toNat + s10.2.toNat ∧ s11.2.toNat ≤ 1 := addZ0 _ _ e_s10.2
  clear_value p1 p2 p3 p4 p5 s6 s7 s8 s9 s10 s11
  have h := recipMul2_core wL wU wL wU wL wU wL wU e_p2 wL wU e_p3 e_p4 e_p5 e_s6.1 wL e_s7.1 wL e_s8.1 wL wL e_s9.1 wL wU e_s10.1 wL e_s11.1 wL wL
  rw [Words2.toZ, ← e_p1]
  exact h

end U256
end Uni
