import Verif.Proofs.Dust
import Verif.Props.Cash
/-! # C109: all cash of the pool belongs to somebody -/
namespace Uni
namespace Props
open U256 Spec TickData TickMath FullMath _root_.Uni.Pool

theorem kept_cash {s : Bool} {rs : List (Int × Int)} {p0 p : Pool} {h : List Entry} {b0 b1 : Int} {n : Nat} (hk : Kept s rs p0 h p b0 b1 n) :
    Cash rs p0 h p b0 b1 ∧ pairS s (b0, b1) < 2 ^ 128 := by
  induction hk with
  | start => exact ⟨.start, by cases s <;> decide +kernel⟩
  | step k op hr ha hsafe hfair hown hx hb ih => exact ⟨.step (k + 1) op ih.1 ha hsafe hfair hx, by cases s <;> exact hb⟩

theorem kept_inv {s : Bool} {rs : List (Int × Int)} (ho : OwnRecords rs) {p0 p : Pool} {h : List Entry} {b0 b1 : Int} {n : Nat}
    (h0 : Inv [] p0) (hnone : p0.positions = fun _ => none) (hk : Kept s rs p0 h p b0 b1 n) :
    AllRecorded rs h p ∧ ((pairS s (b0, b1) : Int) : ℚ) * 2 ^ 128 ≤
      prinS s h p.price.toNat * 2 ^ 128 + ((rs.map (pot s p)).sum : Nat) + 2 * n * 2 ^ 128 := by
  induction hk with
  | start =>
    refine ⟨⟨fun r _ => ?_, fun l u hne => absurd rfl hne⟩, ?_⟩
    · unfold liqOf recordOf
      rw [hnone]
      rfl
    · have h1 := prinS_nonneg h0.cov s p0.price.toNat
      have h2 : (0 : ℚ) ≤ ((rs.map (pot s p0)).sum : Nat) := Nat.cast_nonneg _
      have h3 : pairS s (0, 0) = 0 := by cases s <;> rfl
      rw [h3]
      push_cast at h2 ⊢
      nlinarith
  | @step h p p' b0 b1 n k op hr ha hsafe hfair hown hx hb ih =>
    obtain ⟨i1, i2⟩ := ih
    obtain ⟨c1, c2⟩ := kept_cash hr
    obtain ⟨j1, _, j3⟩ := cash_inv ho h0 hnone c1
    have hb' : pairS s (b0, b1) + pairS s (op.cash (k + 1) p) < 2 ^ 128 := by cases s <;> exact hb
    obtain ⟨k1, k2⟩ := dust_step ho j1 i1 ha hsafe hfair hown hx (j3 s) c2 hb'
    refine ⟨k1, ?_⟩
    have k5 : ((pairS s (b0 + (op.cash (k + 1) p).1, b1 + (op.cash (k + 1) p).2) : Int) : ℚ) =
        ((pairS s (b0, b1) : Int) : ℚ) + ((pairS s (op.cash (k + 1) p) : Int) : ℚ) := by
      cases s
      · exact Int.cast_add _ _
      · exact Int.cast_add _ _
    rw [k5]
    push_cast
    linarith

theorem pot_claim0 (p : Pool) (rs : List (Int × Int)) : (rs.map (pot true p)).sum ≤ ((rs.map (claim0 p)).sum + rs.length) * 2 ^ 128 := by
  induction rs with
  | nil => exact Nat.zero_le _
  | cons r rs ih =>
    rw [List.map_cons, List.map_cons, List.sum_cons, List.sum_cons, List.length_cons]
    have h1 : pot true p r ≤ (claim0 p r + 1) * 2 ^ 128 := by
      unfold pot claim0
      simp only [owS, laS, giS, if_true, sub_def]
      generalize (recordOf p r).liquidity.toNat * ((growthNow p r).1 - (recordOf p r).inside0).toNat = w
      have h2 := Nat.div_add_mod w (2 ^ 128)
      have h3 := Nat.mod_lt w (show 0 < 2 ^ 128 by norm_num)
      rw [Nat.add_mul, Nat.add_mul]
      linarith
    linarith

theorem pot_claim1 (p : Pool) (rs : List (Int × Int)) : (rs.map (pot false p)).sum ≤ ((rs.map (claim1 p)).sum + rs.length) * 2 ^ 128 := by
  induction rs with
  | nil => exact Nat.zero_le _
  | cons r rs ih =>
    rw [List.map_cons, List.map_cons, List.sum_cons, List.sum_cons, List.length_cons]
    have h1 : pot false p r ≤ (claim1 p r + 1) * 2 ^ 128 := by
      unfold pot claim1
      simp only [owS, laS, giS, Bool.false_eq_true, if_false, sub_def]
      generalize (recordOf p r).liquidity.toNat * ((growthNow p r).2 - (recordOf p r).inside1).toNat = w
      have h2 := Nat.div_add_mod w (2 ^ 128)
      have h3 := Nat.mod_lt w (show 0 < 2 ^ 128 by norm_num)
      rw [Nat.add_mul, Nat.add_mul]
      linarith
    linarith

/-- C109: whatever the pool holds of token0 beyond the principal of all positions, the amounts owed and the fees not
credited yet is rounding: at most two units for each of the `n` roundings of the history and one for each range. -/
theorem C109_token0 (a b : String) (fee : Int) (price : U256) (p0 : Pool) (hf : fee = 500 ∨ fee = 3000 ∨ fee = 10000)
    (hn : Pool.new a b fee price = .ok p0) (rs : List (Int × Int)) (ho : OwnRecords rs) (h : List Entry) (p : Pool) (b0 b1 : Int) (n : Nat)
    (hk : Kept true rs p0 h p b0 b1 n) :
    principal0 h p.price.toNat + ((rs.map (claim0 p)).sum : Nat) ≤ b0 ∧
    (b0 : ℚ) ≤ principal0 h p.price.toNat + ((rs.map (claim0 p)).sum : Nat) + 2 * n + rs.length := by
  refine ⟨(C57_covered a b fee price p0 hf hn rs ho h p b0 b1 (kept_cash hk).1).1, ?_⟩
  obtain ⟨_, h2⟩ := kept_inv ho (new_inv hf hn).1 (new_positions hn) hk
  have h2' : (b0 : ℚ) * 2 ^ 128 ≤ principal0 h p.price.toNat * 2 ^ 128 + ((rs.map (pot true p)).sum : Nat) + 2 * n * 2 ^ 128 := h2
  have h3 : (((rs.map (pot true p)).sum : Nat) : ℚ) ≤ (((rs.map (claim0 p)).sum : Nat) + rs.length) * 2 ^ 128 := by
    exact_mod_cast pot_claim0 p rs
  refine le_of_mul_le_mul_right ?_ (show (0 : ℚ) < 2 ^ 128 by norm_num)
  linarith

/-- C109: the same for token1. -/
theorem C109_token1 (a b : String) (fee : Int) (price : U256) (p0 : Pool) (hf : fee = 500 ∨ fee = 3000 ∨ fee = 10000)
    (hn : Pool.new a b fee price = .ok p0) (rs : List (Int × Int)) (ho : OwnRecords rs) (h : List Entry) (p : Pool) (b0 b1 : Int) (n : Nat)
    (hk : Kept false rs p0 h p b0 b1 n) :
    principal1 h p.price.toNat + ((rs.map (claim1 p)).sum : Nat) ≤ b1 ∧
    (b1 : ℚ) ≤ principal1 h p.price.toNat + ((rs.map (claim1 p)).sum : Nat) + 2 * n + rs.length := by
  refine ⟨(C57_covered a b fee price p0 hf hn rs ho h p b0 b1 (kept_cash hk).1).2, ?_⟩
  obtain ⟨_, h2⟩ := kept_inv ho (new_inv hf hn).1 (new_positions hn) hk
  have h2' : (b1 : ℚ) * 2 ^ 128 ≤ principal1 h p.price.toNat * 2 ^ 128 + ((rs.map (pot false p)).sum : Nat) + 2 * n * 2 ^ 128 := h2
  have h3 : (((rs.map (pot false p)).sum : Nat) : ℚ) ≤ (((rs.map (claim1 p)).sum : Nat) + rs.length) * 2 ^ 128 := by
    exact_mod_cast pot_claim1 p rs
  refine le_of_mul_le_mul_right ?_ (show (0 : ℚ) < 2 ^ 128 by norm_num)
  linarith

/-- C109: after all owners have burned and collected everything, the pool is left with rounding only: everything the
traders and the borrowers paid has been paid out to the owners. -/
theorem C109_left (s : Bool) (a b : String) (fee : Int) (price : U256) (p0 : Pool) (hf : fee = 500 ∨ fee = 3000 ∨ fee = 10000)
    (hn : Pool.new a b fee price = .ok p0) (rs : List (Int × Int)) (ho : OwnRecords rs) (h : List Entry) (p : Pool) (b0 b1 : Int) (n : Nat)
    (hk : Kept s rs p0 h p b0 b1 n)
    (hleft : ∀ r ∈ rs, (recordOf p r).liquidity = zero ∧ (recordOf p r).owed0 = zero ∧ (recordOf p r).owed1 = zero) :
    0 ≤ (if s then b0 else b1) ∧ (if s then b0 else b1) ≤ 2 * (n : Int) := by
  obtain ⟨k0, k1⟩ := C57_never_negative a b fee price p0 hf hn rs ho h p b0 b1 (kept_cash hk).1
  refine ⟨by split <;> assumption, ?_⟩
  obtain ⟨⟨h1, h1'⟩, h2⟩ := kept_inv ho (new_inv hf hn).1 (new_positions hn) hk
  have hz : (zero : U256).toNat = 0 := by decide
  have hout : ∀ l u, outstanding h l u = 0 := by
    intro l u
    by_contra hc
    have hm := h1' l u hc
    have := h1 _ hm
    unfold liqOf at this
    rw [(hleft _ hm).1, hz] at this
    exact hc this.symm
  have hpot : (rs.map (pot s p)).sum = 0 := by
    have : (rs.map (pot s p)).sum ≤ (rs.map fun _ => 0).sum := sum_le fun r hr => by
      obtain ⟨e1, e2, e3⟩ := hleft r hr
      unfold pot owS
      rw [e1, e2, e3, hz, Nat.zero_mul]
      cases s <;> simp [hz]
    have h2 : ∀ l : List (Int × Int), (l.map fun _ => 0).sum = 0 := by
      intro l
      induction l with
      | nil => rfl
      | cons x l ih => rw [List.map_cons, List.sum_cons, ih]
    rw [h2] at this
    omega
  have hpr : prinS s h p.price.toNat ≤ 0 := by
    have h3 : 0 ≤ wsum (fun l u => -(if s then holding0 p.price.toNat l u else holding1 p.price.toNat l u)) h :=
      wsum_nonneg (fun l u => (hout l u).ge) (fun e _ hp => absurd (hout e.lower e.upper) (by omega))
    have h4 : ∀ f : Int → Int → ℚ, wsum (fun l u => -f l u) h = -wsum f h := by
      intro f
      unfold wsum
      clear * -
      induction h with
      | nil => simp
      | cons e h ih =>
        simp only [List.map_cons, List.sum_cons] at ih ⊢
        rw [ih]
        ring
    rw [h4] at h3
    have h5 : prinS s h p.price.toNat = wsum (fun l u => if s then holding0 p.price.toNat l u else holding1 p.price.toNat l u) h := by
      cases s <;> rfl
    rw [h5]
    linarith
  rw [hpot] at h2
  have h6 : ((pairS s (b0, b1) : Int) : ℚ) ≤ 2 * n := by
    refine le_of_mul_le_mul_right ?_ (show (0 : ℚ) < 2 ^ 128 by norm_num)
    push_cast at h2
    nlinarith
  have h7 : pairS s (b0, b1) ≤ 2 * (n : Int) := by exact_mod_cast h6
  exact h7

namespace DustDemo

def o1 : PoolOp := .mintStrategy (-120) 180 (ofNat 1000000)
theorem ok1 : isOk (PoolOp.exec 1 Demo.p0 o1) = true := by decide +kernel
def q1 : Pool := getOk _ ok1
def o2 : PoolOp := .exactInput (ofNat 5000) "USDC" zero
theorem ok2 : isOk (PoolOp.exec 2 q1 o2) = true := by decide +kernel
def q2 : Pool := getOk _ ok2
def o3 : PoolOp := .flash (ofNat 100000) (ofNat 5000000)
theorem ok3 : isOk (PoolOp.exec 1 q2 o3) = true := by decide +kernel
def q3 : Pool := getOk _ ok3
def o4 : PoolOp := .burnStrategy (-120) 180 (ofNat 1000000)
theorem ok4 : isOk (PoolOp.exec 1 q3 o4) = true := by decide +kernel
def q4 : Pool := getOk _ ok4
def o5 : PoolOp := .collectStrategy (-120) 180
theorem ok5 : isOk (PoolOp.exec 1 q4 o5) = true := by decide +kernel
def q5 : Pool := getOk _ ok5

/-- A mint, a swap of 5000 token1 in one iteration, a flash loan with fees of 300 and 15000; then the owner leaves. -/
theorem history : ∃ h b0 b1, Kept false [(-120, 180)] Demo.p0 h q5 b0 b1 4 ∧ 0 < b1 ∧
    ∀ r ∈ [(-120, 180)], (recordOf q5 r).liquidity = zero ∧ (recordOf q5 r).owed0 = zero ∧ (recordOf q5 r).owed1 = zero := by
  have k1 := Kept.step (token0 := false) (rs := [(-120, 180)]) 0 o1 .start
    (show total [] + ((ofNat 1000000).toNat : Int) < 2 ^ 128 by decide +kernel) trivial (List.mem_singleton.2 rfl) trivial (eq_getOk _ ok1)
    (by decide +kernel)
  have k2 := Kept.step 1 o2 k1 ⟨by decide +kernel, fun h => absurd h (by decide +kernel)⟩ (fun h => absurd h (by decide +kernel)) trivial
    (Or.inl (by decide +kernel)) (eq_getOk _ ok2) (by decide +kernel)
  have k3 := Kept.step 0 o3 k2 trivial trivial trivial trivial (eq_getOk _ ok3) (by decide +kernel)
  have k4 := Kept.step 0 o4 k3 (show ((ofNat 1000000).toNat : Int) ≤ outstanding _ _ _ by decide +kernel) trivial
    ⟨List.mem_singleton.2 rfl, by decide +kernel⟩ trivial (eq_getOk _ ok4) (by decide +kernel)
  have k5 := Kept.step 0 o5 k4 trivial trivial (List.mem_singleton.2 rfl) trivial (eq_getOk _ ok5) (by decide +kernel)
  exact ⟨_, _, _, k5, by decide +kernel, fun r hr => by rw [List.mem_singleton.1 hr]; decide +kernel⟩

/-! The exact output: one price unit of `2^110` units of liquidity is worth 16384 token0. -/

def e1 : PoolOp := .mintStrategy (-120) 180 (ofNat (2 ^ 110))
theorem oke1 : isOk (PoolOp.exec 1 Demo.p0 e1) = true := by decide +kernel
def x1 : Pool := getOk _ oke1
def e2 : PoolOp := .exactOutput (neg (ofNat 1)) "WETH" zero
theorem oke2 : isOk (PoolOp.exec 2 x1 e2) = true := by decide +kernel
def x2 : Pool := getOk _ oke2
def e3 : PoolOp := .burnStrategy (-120) 180 (ofNat (2 ^ 110))
theorem oke3 : isOk (PoolOp.exec 1 x2 e3) = true := by decide +kernel
def x3 : Pool := getOk _ oke3
theorem oke4 : isOk (PoolOp.exec 1 x3 o5) = true := by decide +kernel
def x4 : Pool := getOk _ oke4

/-! The plain mint: nobody owns its fees. -/

def f1 : PoolOp := .mint (-120) 180 (ofNat 1000000)
theorem okf1 : isOk (PoolOp.exec 1 Demo.p0 f1) = true := by decide +kernel
def y1 : Pool := getOk _ okf1
theorem okf2 : isOk (PoolOp.exec 1 y1 o3) = true := by decide +kernel
def y2 : Pool := getOk _ okf2
def f3 : PoolOp := .burn (-120) 180 (ofNat 1000000)
theorem okf3 : isOk (PoolOp.exec 1 y2 f3) = true := by decide +kernel
def y3 : Pool := getOk _ okf3

end DustDemo

/-- The hypotheses of C109 are met by a history in which fees are earned and everybody leaves. -/
example : ∃ h p b0 b1, OwnRecords [(-120, 180)] ∧ Kept false [(-120, 180)] Demo.p0 h p b0 b1 4 ∧ 0 < b1 :=
  let ⟨h, b0, b1, k, k', _⟩ := DustDemo.history
  ⟨h, DustDemo.q5, b0, b1, CashDemo.own, k, k'⟩

/-- C109 needs the restriction on exact outputs: a mint, one exact output of 1 token0, and the owner leaves.  The pool keeps
more than 16000 token0, which belong to nobody: the price moves by whole units, and the trader gets only what they asked for. -/
theorem C109_exact_output : ∃ (h : List Entry) (p : Pool) (b0 b1 : Int), Cash [(-120, 180)] Demo.p0 h p b0 b1 ∧ 16000 < b0 ∧
    ∀ r ∈ [(-120, 180)], (recordOf p r).liquidity = zero ∧ (recordOf p r).owed0 = zero ∧ (recordOf p r).owed1 = zero := by
  have k1 := Cash.step (rs := [(-120, 180)]) 1 DustDemo.e1 (.start (p0 := Demo.p0))
    (show total [] + ((ofNat (2 ^ 110)).toNat : Int) < 2 ^ 128 by decide +kernel) trivial (List.mem_singleton.2 rfl) (eq_getOk _ DustDemo.oke1)
  have k2 := Cash.step 2 DustDemo.e2 k1 ⟨by decide +kernel, fun h => absurd h (by decide +kernel)⟩ (fun h => absurd h (by decide +kernel)) trivial
    (eq_getOk _ DustDemo.oke2)
  have k3 := Cash.step 1 DustDemo.e3 k2 (show ((ofNat (2 ^ 110)).toNat : Int) ≤ outstanding _ _ _ by decide +kernel) trivial
    ⟨List.mem_singleton.2 rfl, by decide +kernel⟩ (eq_getOk _ DustDemo.oke3)
  have k4 := Cash.step 1 DustDemo.o5 k3 trivial trivial (List.mem_singleton.2 rfl) (eq_getOk _ DustDemo.oke4)
  exact ⟨_, _, _, _, k4, by decide +kernel, fun r hr => by rw [List.mem_singleton.1 hr]; decide +kernel⟩

/-- C109 needs the restriction on plain mints: a plain mint, a flash loan with a fee of 15000 token1, and a plain burn of all
liquidity.  The fee stays in the pool for ever. -/
theorem C109_plain : ∃ (h : List Entry) (p : Pool) (b0 b1 : Int), Cash [] Demo.p0 h p b0 b1 ∧ (∀ l u, outstanding h l u = 0) ∧ 15000 ≤ b1 := by
  have k1 := Cash.step (rs := []) 1 DustDemo.f1 (.start (p0 := Demo.p0))
    (show total [] + ((ofNat 1000000).toNat : Int) < 2 ^ 128 by decide +kernel) trivial trivial (eq_getOk _ DustDemo.okf1)
  have k2 := Cash.step 1 DustDemo.o3 k1 trivial trivial trivial (eq_getOk _ DustDemo.okf2)
  have k3 := Cash.step 1 DustDemo.f3 k2
    (show ((ofNat 1000000).toNat : Int) ≤ outstanding _ _ _ ∧ 0 < outstanding _ _ _ by decide +kernel) trivial
    (fun hm => absurd hm (by simp)) (eq_getOk _ DustDemo.okf3)
  refine ⟨_, _, _, _, k3, fun l u => ?_, by decide +kernel⟩
  show outstanding [⟨-120, 180, -((ofNat 1000000).toNat : Int)⟩, ⟨-120, 180, ((ofNat 1000000).toNat : Int)⟩] l u = 0
  rw [outstanding_cons, outstanding_cons]
  by_cases hc : (-120 : Int) = l ∧ (180 : Int) = u
  · rw [if_pos hc, if_pos hc, show outstanding [] l u = 0 from rfl]
    dsimp only
    ring
  · rw [if_neg hc, if_neg hc]; rfl

end Props
end Uni
