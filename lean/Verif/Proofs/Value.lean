import Verif.Spec.Value
import Verif.Proofs.Trading
import Verif.Proofs.SwapPath
import Verif.Props.Invest
/-! # Values at a price -/
namespace Uni
open U256 Spec TickData TickMath FullMath SwapMath
namespace Pool

theorem value_add (P : Nat) (a b c d : ℚ) : value P (a + c) (b + d) = value P a b + value P c d := by
  unfold value; ring

theorem value_sub (P : Nat) (a b c d : ℚ) : value P (a - c) (b - d) = value P a b - value P c d := by
  unfold value; ring

theorem value_smul (P : Nat) (k a b : ℚ) : value P (k * a) (k * b) = k * value P a b := by
  unfold value; ring

theorem value_mono {P : Nat} {a b c d : ℚ} (h0 : a ≤ c) (h1 : b ≤ d) : value P a b ≤ value P c d := by
  unfold value
  have : (0 : ℚ) ≤ ((P : ℚ) / 2 ^ 96) ^ 2 := by positivity
  nlinarith [mul_le_mul_of_nonneg_right h0 this]

/-- Among all compositions of a range, the one of the price `Q` is worth least at `Q`. -/
theorem holding_convex (P : Nat) {Q : Nat} {l u : Int} (hl : -887272 ≤ l) (hlu : l < u) (hu : u ≤ 887272) :
    value Q (holding0 Q l u) (holding1 Q l u) ≤ value Q (holding0 P l u) (holding1 P l u) := by
  obtain ⟨q0, q1⟩ := holding_eq (P := Q) hl hlu hu
  obtain ⟨p0, p1⟩ := holding_eq (P := P) hl hlu hu
  rw [q0, q1, p0, p1]
  have r1 := ratioN_ge hl (by omega)
  have r3 := ratioN_lt (s := l) (t := u) hl hlu hu
  generalize ratioN l = a at *
  generalize ratioN u = b at *
  have hc : a ≤ clamp P a b ∧ clamp P a b ≤ b := by unfold clamp; omega
  have hd : (clamp Q a b = Q) ∨ (clamp Q a b = a ∧ Q ≤ a) ∨ (clamp Q a b = b ∧ b ≤ Q) := by unfold clamp; omega
  have hd' : a ≤ clamp Q a b ∧ clamp Q a b ≤ b := by unfold clamp; omega
  generalize clamp P a b = c at *
  generalize clamp Q a b = d at *
  have apos : (0 : ℚ) < a := by exact_mod_cast (show 0 < a by omega)
  have ca : (a : ℚ) ≤ c := by exact_mod_cast hc.1
  have cb : (c : ℚ) ≤ b := by exact_mod_cast hc.2
  have cpos : (0 : ℚ) < c := by linarith
  have da : (a : ℚ) ≤ d := by exact_mod_cast hd'.1
  have dpos : (0 : ℚ) < d := by linarith
  have key : value Q (2 ^ 96 * (1 / c - 1 / b)) ((c - a) / 2 ^ 96) - value Q (2 ^ 96 * (1 / d - 1 / b)) ((d - a) / 2 ^ 96) =
      (c - d) * (c * d - Q ^ 2) / (c * d * 2 ^ 96) := by
    unfold value
    have hb : (b : ℚ) ≠ 0 := by linarith
    field_simp
    ring
  have goal : (0 : ℚ) ≤ (c - d) * (c * d - Q ^ 2) / (c * d * 2 ^ 96) := by
    apply div_nonneg _ (by positivity)
    have Q0 : (0 : ℚ) ≤ Q := Nat.cast_nonneg _
    rcases hd with rfl | ⟨rfl, h⟩ | ⟨rfl, h⟩
    · have : ((c : ℚ) - d) * (c * d - d ^ 2) = d * (c - d) ^ 2 := by ring
      rw [this]; positivity
    · have h' : (Q : ℚ) ≤ d := by exact_mod_cast h
      exact mul_nonneg (by linarith) (by nlinarith)
    · have h' : (d : ℚ) ≤ Q := by exact_mod_cast h
      exact mul_nonneg_of_nonpos_of_nonpos (by linarith) (by nlinarith)
  linarith

theorem principal_convex {h : List Entry} (hn : ∀ l u, 0 ≤ outstanding h l u)
    (hv : ∀ e ∈ h, -887272 ≤ e.lower ∧ e.lower < e.upper ∧ e.upper ≤ 887272) (P Q : Nat) :
    value Q (principal0 h Q) (principal1 h Q) ≤ value Q (principal0 h P) (principal1 h P) := by
  have e : ∀ P, value Q (principal0 h P) (principal1 h P) = wsum (fun l u => value Q (holding0 P l u) (holding1 P l u)) h := by
    intro P
    unfold value principal0 principal1
    rw [wsum_add, show (fun a b => holding0 P a b * ((Q : ℚ) / 2 ^ 96) ^ 2) = (fun a b => ((Q : ℚ) / 2 ^ 96) ^ 2 * holding0 P a b) by
      funext a b; ring, wsum_smul]
    ring
  rw [e, e]
  exact wsum_le hn (fun e he _ => holding_convex P (hv e he).1 (hv e he).2.1 (hv e he).2.2)

theorem trades_value {h : List Entry} {p q : Pool} {d0 d1 : Int} (hi : Inv h p) (ht : Trades h p q d0 d1) :
    0 ≤ value p.price.toNat d0 d1 := by
  obtain ⟨_, e0, e1⟩ := trades_inv hi ht
  have h1 := principal_convex hi.cov.nonneg (fun e he => ⟨(hi.bounds e he).1, hi.cov.range e he, (hi.bounds e he).2⟩) q.price.toNat p.price.toNat
  have h2 := value_mono (P := p.price.toNat) e0 e1
  rw [value_sub] at h2
  linarith

/-- The exchange rate between two prices is between their squares. -/
theorem move_rate {a b L : ℚ} (ha : 0 < a) (hab : a ≤ b) (hL : 0 ≤ L) :
    2 ^ 96 * (1 / a - 1 / b) * L * (a / 2 ^ 96) ^ 2 ≤ (b - a) / 2 ^ 96 * L ∧
    (b - a) / 2 ^ 96 * L ≤ 2 ^ 96 * (1 / a - 1 / b) * L * (b / 2 ^ 96) ^ 2 := by
  have hb : 0 < b := by linarith
  have d : 0 ≤ (b - a) / 2 ^ 96 * L := by
    apply mul_nonneg (div_nonneg (by linarith) (by norm_num)) hL
  have e1 : 2 ^ 96 * (1 / a - 1 / b) * L * (a / 2 ^ 96) ^ 2 = (b - a) / 2 ^ 96 * L * (a / b) := by field_simp
  have e2 : 2 ^ 96 * (1 / a - 1 / b) * L * (b / 2 ^ 96) ^ 2 = (b - a) / 2 ^ 96 * L * (b / a) := by field_simp
  rw [e1, e2]
  have r1 : a / b ≤ 1 := by rw [div_le_one hb]; exact hab
  have r2 : 1 ≤ b / a := by rw [le_div_iff₀ ha]; linarith
  constructor
  · have := mul_le_mul_of_nonneg_left r1 d; linarith
  · have := mul_le_mul_of_nonneg_left r2 d; linarith

/-- One leg: its output is worth at most its input at the better of its two prices. -/
theorem leg_price {h : List Entry} {sp : Int} {z : Bool} {rate limit : Nat} {rem : Int} {l : Leg} (hrate : rate < 1000000)
    (hl : l.Ok h sp z rate limit rem) :
    (if z then (l.output : ℚ) ≤ l.input * ((l.start : ℚ) / 2 ^ 96) ^ 2 else (l.output : ℚ) * ((l.start : ℚ) / 2 ^ 96) ^ 2 ≤ l.input) ∧
    (0 ≤ rem → if z then ((l.input : ℚ) - 1) * ((l.stop : ℚ) / 2 ^ 96) ^ 2 ≤ l.output + 1
      else (l.input : ℚ) - 1 ≤ (l.output + 1) * ((l.stop : ℚ) / 2 ^ 96) ^ 2) ∧
    l.input * 1000000 ≤ (l.input + l.fee) * (1000000 - rate) := by
  obtain ⟨a, b, h1, h2, h3, h4, h5, h6, h7⟩ := hl.liquidity
  rw [Props.tickPrice_eq h1 (by omega)] at h4
  have hlo := ratioN_ge h1 (show a ≤ 887272 by omega)
  have hd := hl.direction
  have hin := hl.input
  have hout : l.output ≤ outAmount z l.start l.stop l.liquidity := by
    rcases le_or_gt 0 rem with h0 | h0
    · rw [hl.outputIn h0]
    · rcases hl.outputOut h0 with ⟨e, _⟩ | ⟨_, e, _⟩
      · rw [e]
      · exact e
  have hoi := hl.outputIn
  have hfee : l.input * 1000000 ≤ (l.input + l.fee) * (1000000 - rate) := by
    have := hl.feeRate
    obtain ⟨k, hk⟩ : ∃ k, 1000000 = rate + k := ⟨1000000 - rate, by omega⟩
    rw [show 1000000 - rate = k by omega] at *
    rw [show l.input * 1000000 = l.input * rate + l.input * k by rw [hk]; ring]
    nlinarith
  have s0 : (0 : ℚ) < l.start := by exact_mod_cast (show 0 < l.start by omega)
  have t0 : (0 : ℚ) < l.stop := by exact_mod_cast (show 0 < l.stop by omega)
  have L0 : (0 : ℚ) ≤ l.liquidity := Nat.cast_nonneg _
  have sq : ∀ x : ℚ, 0 ≤ (x / 2 ^ 96) ^ 2 := fun x => by positivity
  cases z
  · rw [if_neg (by decide)] at hd
    rw [inAmount_f] at hin
    rw [outAmount_f] at hout hoi
    have hle : (l.start : ℚ) ≤ l.stop := by exact_mod_cast hd.1
    obtain ⟨m1, m2⟩ := move_rate s0 hle L0
    have i1 := up1_ge (L := l.liquidity) hd.1
    have i2 := up1_lt (L := l.liquidity) hd.1
    have o1 := down0_le (L := l.liquidity) (P := l.start) (Q := l.stop) (by omega) hd.1
    have o2 := down0_gt (L := l.liquidity) (P := l.start) (Q := l.stop) (by omega) hd.1
    have hout' : (l.output : ℚ) ≤ (amount0Down l.start l.stop l.liquidity : ℚ) := by exact_mod_cast hout
    refine ⟨?_, fun h0 => ?_, hfee⟩
    · rw [if_neg (by decide), hin]
      have := mul_le_mul_of_nonneg_right (hout'.trans o1) (sq l.start)
      linarith
    · rw [if_neg (by decide), hin, hoi h0]
      have := mul_le_mul_of_nonneg_right o2.le (sq l.stop)
      linarith
  · rw [if_pos rfl] at hd
    rw [inAmount_t, amount0Up_comm] at hin
    rw [outAmount_t, amount1Down_comm] at hout hoi
    have hle : (l.stop : ℚ) ≤ l.start := by exact_mod_cast hd.2
    obtain ⟨m1, m2⟩ := move_rate t0 hle L0
    have i1 := up0_ge (L := l.liquidity) (P := l.stop) (Q := l.start) (by omega) hd.2
    have i2 := up0_lt (L := l.liquidity) (P := l.stop) (Q := l.start) (by omega) hd.2
    have o1 := down1_le (L := l.liquidity) hd.2
    have o2 := down1_gt (L := l.liquidity) hd.2
    have hout' : (l.output : ℚ) ≤ (amount1Down l.stop l.start l.liquidity : ℚ) := by exact_mod_cast hout
    refine ⟨?_, fun h0 => ?_, hfee⟩
    · rw [if_pos rfl, hin]
      have := mul_le_mul_of_nonneg_right i1 (sq l.start)
      linarith
    · rw [if_pos rfl, hin, hoi h0]
      have := mul_le_mul_of_nonneg_right (show (amount0Up l.stop l.start l.liquidity : ℚ) - 1 ≤ 2 ^ 96 * (1 / (l.stop : ℚ) - 1 / l.start) * l.liquidity by linarith [i2]) (sq l.stop)
      linarith

theorem path_direction {h : List Entry} {sp : Int} {z : Bool} {rate limit P P' : Nat} {rem rem' : Int} {legs : List Leg}
    (hp : Path h sp z rate limit P rem legs P' rem') : if z then P' ≤ P else P ≤ P' := by
  induction hp with
  | stop P rem _ => cases z <;> simp
  | leg hr hl hok hp ih =>
    have hd := hok.direction
    cases z
    · rw [if_neg (by decide)] at hd ih ⊢; omega
    · rw [if_pos rfl] at hd ih ⊢; omega

theorem path_done {h : List Entry} {sp : Int} {z : Bool} {rate limit P P' : Nat} {rem rem' : Int} {legs : List Leg}
    (hp : Path h sp z rate limit P rem legs P' rem') (h0 : rem = 0) : rem' = 0 := by
  cases hp with
  | stop => exact h0
  | leg h _ _ _ => exact absurd h0 h

theorem sq_mono {a b : Nat} (h : a ≤ b) : ((a : ℚ) / 2 ^ 96) ^ 2 ≤ ((b : ℚ) / 2 ^ 96) ^ 2 := by
  have : (a : ℚ) ≤ b := by exact_mod_cast h
  have h0 : (0 : ℚ) ≤ a := Nat.cast_nonneg _
  gcongr

theorem path_price {h : List Entry} {sp : Int} {z : Bool} {rate limit P P' : Nat} {rem rem' : Int} {legs : List Leg} (hrate : rate < 1000000)
    (hp : Path h sp z rate limit P rem legs P' rem') {A : Nat} (hA : if z then P ≤ A else A ≤ P) :
    (if z then (((legs.map (·.output)).sum : Nat) : ℚ) ≤ ((legs.map (·.input)).sum : Nat) * ((A : ℚ) / 2 ^ 96) ^ 2
      else (((legs.map (·.output)).sum : Nat) : ℚ) * ((A : ℚ) / 2 ^ 96) ^ 2 ≤ ((legs.map (·.input)).sum : Nat)) ∧
    (legs.map (·.input)).sum * 1000000 ≤ (legs.map (fun l => l.input + l.fee)).sum * (1000000 - rate) := by
  induction hp with
  | stop P rem _ => cases z <;> simp
  | leg hr hl hok hp ih =>
    rename_i l rem rem' ls P'
    obtain ⟨h1, _, h3⟩ := leg_price hrate hok
    have hd := hok.direction
    have i0 : (0 : ℚ) ≤ l.input := Nat.cast_nonneg _
    have o0 : (0 : ℚ) ≤ l.output := Nat.cast_nonneg _
    rw [List.map_cons, List.sum_cons, List.map_cons, List.sum_cons, List.map_cons, List.sum_cons]
    push_cast
    cases z
    · rw [if_neg (by decide)] at hd h1 hA ih ⊢
      obtain ⟨g1, g2⟩ := ih (by omega)
      rw [if_neg (by decide)] at g1
      refine ⟨?_, by rw [Nat.add_mul l.input, Nat.add_mul (l.input + l.fee)]; exact Nat.add_le_add h3 g2⟩
      have := mul_le_mul_of_nonneg_left (sq_mono hA) o0
      rw [add_mul]
      linarith
    · rw [if_pos rfl] at hd h1 hA ih ⊢
      obtain ⟨g1, g2⟩ := ih (by omega)
      rw [if_pos rfl] at g1
      refine ⟨?_, by rw [Nat.add_mul l.input, Nat.add_mul (l.input + l.fee)]; exact Nat.add_le_add h3 g2⟩
      have := mul_le_mul_of_nonneg_left (sq_mono hA) i0
      rw [add_mul]
      linarith

theorem path_floor {h : List Entry} {sp : Int} {z : Bool} {rate limit P P' : Nat} {rem rem' : Int} {legs : List Leg} (hrate : rate < 1000000)
    (hp : Path h sp z rate limit P rem legs P' rem') (h0 : 0 ≤ rem) :
    (if z then ((((legs.map (·.input)).sum : Nat) : ℚ) - legs.length) * ((P' : ℚ) / 2 ^ 96) ^ 2 ≤ ((legs.map (·.output)).sum : Nat) + legs.length
      else (((legs.map (·.input)).sum : Nat) : ℚ) - legs.length ≤ (((legs.map (·.output)).sum : Nat) + legs.length) * ((P' : ℚ) / 2 ^ 96) ^ 2) ∧
    (((legs.map (fun l => l.input + l.fee)).sum : Nat) : Int) = rem - rem' ∧ 0 ≤ rem' ∧
    (rem' ≠ 0 → (legs.map (fun l => l.input + l.fee)).sum * (1000000 - rate) ≤
      (legs.map (·.input)).sum * 1000000 + legs.length * (1000000 - rate)) := by
  induction hp with
  | stop P rem _ => cases z <;> simp [h0]
  | leg hr hl hok hp ih =>
    rename_i l rem rem' ls P'
    have hrest : l.rest rem = rem - (l.input + l.fee : Nat) := by unfold Leg.rest; rw [if_pos h0]
    have hb := hok.budget h0
    obtain ⟨g1, g2, g3, g4⟩ := ih (by omega)
    obtain ⟨_, h1, _⟩ := leg_price hrate hok
    have h1 := h1 h0
    have hd := path_direction hp
    have sq0 : (0 : ℚ) ≤ ((P' : ℚ) / 2 ^ 96) ^ 2 := by positivity
    have o0 : (0 : ℚ) ≤ l.output := Nat.cast_nonneg _
    rw [List.map_cons, List.sum_cons, List.map_cons, List.sum_cons, List.map_cons, List.sum_cons, List.length_cons]
    refine ⟨?_, ?_, g3, ?_⟩
    · cases z
      · rw [if_neg (by decide)] at h1 hd g1 ⊢
        push_cast
        have := mul_le_mul_of_nonneg_left (sq_mono hd) (show (0 : ℚ) ≤ l.output + 1 by linarith)
        nlinarith
      · rw [if_pos rfl] at h1 hd g1 ⊢
        push_cast
        have key : ((l.input : ℚ) - 1) * ((P' : ℚ) / 2 ^ 96) ^ 2 ≤ l.output + 1 := by
          rcases Nat.eq_zero_or_pos l.input with e | e
          · rw [e]; push_cast; nlinarith
          · have e' : (1 : ℚ) ≤ l.input := by exact_mod_cast e
            have := mul_le_mul_of_nonneg_left (sq_mono hd) (show (0 : ℚ) ≤ l.input - 1 by linarith)
            linarith
        nlinarith
    · push_cast
      push_cast at g2 hrest
      omega
    · intro hne
      have g5 := g4 hne
      have hfee : l.fee = ceilDiv (l.input * rate) (1000000 - rate) := by
        rcases hok.feeIn h0 with e | ⟨e, _⟩
        · exact e
        · exfalso
          have z0 : l.rest rem = 0 := by omega
          exact hne (path_done hp z0)
      have h2 : l.fee ≤ l.input * rate / (1000000 - rate) + 1 := by
        rw [hfee]; exact ceilDiv_le_div_succ _ _
      have h3 := Nat.div_mul_le_self (l.input * rate) (1000000 - rate)
      have h4 : l.fee * (1000000 - rate) ≤ l.input * rate + (1000000 - rate) := by
        have := Nat.mul_le_mul_right (1000000 - rate) h2
        rw [Nat.add_mul] at this
        omega
      have h5 : l.input * (1000000 - rate) + l.input * rate = l.input * 1000000 := by
        rw [← Nat.mul_add]; congr 1; omega
      rw [Nat.add_mul, Nat.add_mul, Nat.add_mul, Nat.add_mul]
      omega

end Pool
end Uni

namespace Uni
open U256 Spec
namespace Strat

theorem buys_length {P : U256} {plan : List Purchase} {x y : U256 × U256} {ps : List StratPos} (h : Buys P plan x ps y) :
    ps.length ≤ plan.length := by
  induction h with
  | done x => exact le_refl _
  | skip hs h ih => rw [List.length_cons]; omega
  | step hs hv ha hb hA hL h0 h1 h ih =>
    rw [List.length_append, List.length_cons]
    split <;> simp <;> omega

theorem fillBuys_length {P : U256} {unit tick : Int} {r : Int × Int} {x y : U256 × U256} {ps : List StratPos}
    (h : FillBuys P unit tick r x ps y) : ps.length ≤ 2 := by
  obtain ⟨c, f, ps1, ps2, z, _, _, rfl, h1, h2⟩ := h
  have e1 := buys_length h1
  have e2 := buys_length h2
  rw [List.length_append]
  have : (if z.1.toNat ≠ 0 then (if c < r.2 then [all (c, r.2)] else [])
      else if z.2.toNat ≠ 0 then (if r.1 < f then [all (r.1, f)] else []) else []).length ≤ 1 := by
    split_ifs <;> simp
  simp only [List.length_cons, List.length_nil] at e1
  omega

theorem initBuys_length {s : Strat} {x y : U256 × U256} {ps : List StratPos} (h : InitBuys s x ps y) : ps.length ≤ 3 := by
  unfold InitBuys at h
  split at h
  · obtain ⟨_, _, _, _, _, _, h⟩ := h; exact buys_length h
  · obtain ⟨_, _, h⟩ := h; have := fillBuys_length h; omega
  · obtain ⟨_, _, _, _, _, _, h⟩ := h; exact buys_length h
  · rw [h.1]; simp
  · obtain ⟨_, _, h⟩ := h; have := buys_length h; simp at this; omega

theorem rebalanceBuys_length {s : Strat} {x y : U256 × U256} {ps : List StratPos} (h : RebalanceBuys s x ps y) : ps.length ≤ 3 := by
  unfold RebalanceBuys at h
  split at h
  · have := buys_length h; simp at this; omega
  · obtain ⟨_, _, h⟩ := h
    split at h
    · have := fillBuys_length h; omega
    · have := buys_length h; simp at this; omega
  · exact initBuys_length h

theorem cost_worth (P : Nat) (ps : List StratPos) :
    worth0 P ps ≤ cost0 P ps ∧ cost0 P ps ≤ worth0 P ps + ps.length ∧ worth1 P ps ≤ cost1 P ps ∧ cost1 P ps ≤ worth1 P ps + ps.length := by
  have c := fun x : ℚ => Int.floor_le_ceil x
  have d := fun x : ℚ => Int.ceil_le_floor_add_one x
  unfold worth0 worth1 cost0 cost1
  induction ps with
  | nil => simp
  | cons q ps ih =>
    rw [List.map_cons, List.sum_cons, List.map_cons, List.sum_cons, List.map_cons, List.sum_cons, List.map_cons, List.sum_cons, List.length_cons]
    have c0 := c (q.amount.toNat * holding0 P q.lower q.upper)
    have d0 := d (q.amount.toNat * holding0 P q.lower q.upper)
    have c1 := c (q.amount.toNat * holding1 P q.lower q.upper)
    have d1 := d (q.amount.toNat * holding1 P q.lower q.upper)
    push_cast
    omega

theorem worth_append (P : Nat) (ps qs : List StratPos) :
    worth0 P (ps ++ qs) = worth0 P ps + worth0 P qs ∧ worth1 P (ps ++ qs) = worth1 P ps + worth1 P qs := by
  unfold worth0 worth1
  rw [List.map_append, List.sum_append, List.map_append, List.sum_append]
  exact ⟨rfl, rfl⟩

/-- What positions are worth is below `2^255` of either token. -/
theorem worth_lt {P : Nat} {ps : List StratPos} (hw : ∀ q ∈ ps, q.lower < q.upper ∧ -887272 ≤ q.lower ∧ q.upper ≤ 887272)
    (ht : total (entries ps) < 2 ^ 128) : worth0 P ps < 2 ^ 255 ∧ worth1 P ps < 2 ^ 255 := by
  have key : worth0 P ps ≤ 2 ^ 96 * total (entries ps) ∧ worth1 P ps ≤ 2 ^ 96 * total (entries ps) := by
    clear ht
    induction ps with
    | nil => unfold worth0 worth1; simp [entries, total, wsum]
    | cons q ps ih =>
      obtain ⟨i0, i1⟩ := ih (fun q hq => hw q (List.mem_cons_of_mem _ hq))
      obtain ⟨h1, h2, h3⟩ := hw q (List.mem_cons_self ..)
      obtain ⟨e0, e1⟩ := Pool.holding_eq (P := P) h2 h1 h3
      have r1 := TickMath.ratioN_ge h2 (by omega)
      have r2 := TickMath.ratioN_lt160 (t := q.upper) (by omega) h3
      have r3 := TickMath.ratioN_lt (s := q.lower) (t := q.upper) h2 h1 h3
      have b0 : holding0 P q.lower q.upper ≤ 2 ^ 96 := by
        rw [e0]
        have hc : 1 ≤ clamp P (TickMath.ratioN q.lower) (TickMath.ratioN q.upper) := by unfold clamp; omega
        have hc' : (1 : ℚ) ≤ (clamp P (TickMath.ratioN q.lower) (TickMath.ratioN q.upper) : Nat) := by exact_mod_cast hc
        have := div_le_one_of_le₀ hc' (by linarith)
        have p2 : (0 : ℚ) ≤ 1 / (TickMath.ratioN q.upper : Nat) := by positivity
        nlinarith
      have b1 : holding1 P q.lower q.upper ≤ 2 ^ 96 := by
        rw [e1, div_le_iff₀ (by norm_num)]
        have hc : clamp P (TickMath.ratioN q.lower) (TickMath.ratioN q.upper) ≤ 2 ^ 160 := by unfold clamp; omega
        have hc' : ((clamp P (TickMath.ratioN q.lower) (TickMath.ratioN q.upper) : Nat) : ℚ) ≤ 2 ^ 160 := by exact_mod_cast hc
        have p2 : (0 : ℚ) ≤ (TickMath.ratioN q.lower : Nat) := Nat.cast_nonneg _
        have : (2 : ℚ) ^ 160 ≤ 2 ^ 96 * 2 ^ 96 := by norm_num
        linarith
      have et : total (entries (q :: ps)) = q.amount.toNat + total (entries ps) := by
        unfold entries total
        rw [List.map_cons]
        exact wsum_cons' _ _ _ |>.trans (by simp [wsum])
      have fl : ∀ x : ℚ, x ≤ 2 ^ 96 → ⌊q.amount.toNat * x⌋ ≤ 2 ^ 96 * (q.amount.toNat : Int) := by
        intro x hx
        apply Int.floor_le_iff.2
        push_cast
        have : (0 : ℚ) ≤ q.amount.toNat := Nat.cast_nonneg _
        nlinarith [mul_le_mul_of_nonneg_left hx this]
      unfold worth0 worth1 at *
      rw [List.map_cons, List.sum_cons, List.map_cons, List.sum_cons, et, mul_add]
      exact ⟨add_le_add (fl _ b0) i0, add_le_add (fl _ b1) i1⟩
  omega

theorem positions_convex (P Q : Nat) {ps : List StratPos} (hw : ∀ q ∈ ps, q.lower < q.upper ∧ -887272 ≤ q.lower ∧ q.upper ≤ 887272) :
    value Q (worth0 Q ps) (worth1 Q ps) ≤ value Q (cost0 P ps) (cost1 P ps) := by
  induction ps with
  | nil => unfold worth0 worth1 cost0 cost1; simp
  | cons q ps ih =>
    have i := ih (fun q hq => hw q (List.mem_cons_of_mem _ hq))
    obtain ⟨h1, h2, h3⟩ := hw q (List.mem_cons_self ..)
    have c := Pool.holding_convex P (Q := Q) h2 h1 h3
    have c' : value Q (q.amount.toNat * holding0 Q q.lower q.upper) (q.amount.toNat * holding1 Q q.lower q.upper) ≤
        value Q (q.amount.toNat * holding0 P q.lower q.upper) (q.amount.toNat * holding1 P q.lower q.upper) := by
      rw [Pool.value_smul, Pool.value_smul]
      exact mul_le_mul_of_nonneg_left c (Nat.cast_nonneg _)
    have d1 := Pool.value_mono (P := Q) (Int.floor_le (q.amount.toNat * holding0 Q q.lower q.upper)) (Int.floor_le (q.amount.toNat * holding1 Q q.lower q.upper))
    have d2 := Pool.value_mono (P := Q) (Int.le_ceil (q.amount.toNat * holding0 P q.lower q.upper)) (Int.le_ceil (q.amount.toNat * holding1 P q.lower q.upper))
    unfold worth0 worth1 cost0 cost1 at *
    rw [List.map_cons, List.sum_cons, List.map_cons, List.sum_cons, List.map_cons, List.sum_cons, List.map_cons, List.sum_cons,
      Int.cast_add, Int.cast_add, Int.cast_add, Int.cast_add, Pool.value_add, Pool.value_add]
    linarith

end Strat
end Uni
