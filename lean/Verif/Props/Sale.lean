import Verif.Proofs.Sale
import Verif.Spec.Sale
/-! # C88: exactly when a sale of token0 returns -/
namespace Uni
namespace Props
open U256 Spec TickData TickMath Pool

theorem wall_k {sp w : Int} (hsp : 0 < sp) (hw : Wall sp w) : ∃ k : Int, k ≤ 0 ∧ w = 256 * k * sp := by
  obtain ⟨h1, _, k, rfl⟩ := hw
  refine ⟨k, ?_, rfl⟩
  by_contra hc
  have : 0 < 256 * k * sp := Int.mul_pos (by omega) hsp
  omega

theorem sub_eq_self {a b : U256} : sub a b = a ↔ b.toInt = 0 := by
  rw [toInt_eq_zero]
  constructor
  · intro h
    have h1 : (sub a b).toNat = a.toNat := by rw [h]
    have h2 := toNat_sub a b
    have ha := toNat_lt a
    have hb := toNat_lt b
    omega
  · intro h
    apply ext_toNat
    have h2 := toNat_sub a b
    have ha := toNat_lt a
    omega

theorem filled_iff {p : Pool} {z : Bool} {amount : U256} {s : SwapState} :
    FullyTraded z amount ((swapResult z (decide (0 ≤ amount.toInt)) amount s).1, (swapResult z (decide (0 ≤ amount.toInt)) amount s).2, p) ↔
      s.remaining.toInt = 0 := by
  rw [← sub_eq_self (a := amount), ← toInt_inj]
  unfold FullyTraded swapResult sold bought
  by_cases h : 0 ≤ amount.toInt
  · rw [if_pos h, decide_eq_true h]
    cases z
    · rw [if_neg (by decide), if_neg (by decide)]
    · rw [if_pos rfl, if_pos rfl]
  · rw [if_neg h, decide_eq_false h]
    cases z
    · rw [if_pos rfl, if_neg (by decide)]
    · rw [if_pos rfl, if_neg (by decide)]

instance (z : Bool) (amount : U256) (r : U256 × U256 × Pool) : Decidable (FullyTraded z amount r) := by unfold FullyTraded; infer_instance

theorem sinv_wall {h : List Entry} {sp : Int} {ein : Bool} {limit b : U256} {s : SwapState} (hs : SInv h sp true ein limit s)
    (h1 : limit.toNat < b.toNat) (h2 : b.toNat ≤ s.price.toNat) : SInv h sp true ein b s :=
  ⟨hs.inv, fun _ => ⟨h2, by have := (hs.down rfl).2; omega⟩, (by intro h; cases h), hs.rem, hs.remIn, hs.remOut, hs.clear⟩

/-- C88: a sale of token0 whose limit lies below a wall does exactly what the same sale does with the wall as its limit, if
that trades the whole amount; if it does not, the sale runs for ever. -/
theorem C88_sale {h : List Entry} {p : Pool} (hr : Reachable h p) {amount limit : U256} (h0 : amount.toNat ≠ 0)
    (ha : amount.toInt < 2 ^ 160) (hl : LimitValid p true limit) (hliq : ∃ t, grossAt h t ≠ 0)
    (hgood : ¬ SearchBroken p.spacing p.tick) {w : Int} (hw : Wall p.spacing w) {b : U256} (hb : b.toNat = tickPrice w)
    (hlw : swapLimit true limit < tickPrice w) (hwp : tickPrice w < p.price.toNat) (fuel : Nat) :
    p.swap fuel true amount limit =
      (p.swap fuel true amount b >>= fun r => if FullyTraded true amount r then .ok r else .error .fuel) := by
  have hi := reachable_inv hr
  obtain ⟨t, ht⟩ := hliq
  have hw1 := hw.1
  have hw2 := hw.2.1
  obtain ⟨k, hk, hwk⟩ := wall_k (by have := hi.sp_pos; omega) hw
  rw [tickPrice_eq hw2 (by omega)] at hb hlw hwp
  rw [swapLimit_eq] at hlw
  have hb0 : effLimit true b = b := by
    apply ext_toNat
    rw [toNat_effLimit, if_neg (by omega)]
  have hs0 := init_sinv hi ha ((limitValid_iff _ _ _).1 hl) (fun _ => clear_good (h := h) hgood)
  have hmin := (hs0.down rfl).2
  have hlb : LimitValid p true b := by
    rw [limitValid_iff, hb0, limitOk_iff]
    exact ⟨fun _ => ⟨by omega, by omega⟩, by intro h; cases h⟩
  have key := loop_barrier (p := p) hi.fee0 hi.fee1 hi.sp_pos ht hk (by omega) (b := b) (by rw [hb, hwk]) (by omega) hmin fuel
    (initState p true amount) (sinv_wall hs0 (by omega) (by show _ ≤ p.price.toNat; omega)) ⟨rfl, Or.inl hgood⟩
  rw [swap_loop _ _ _ _ _ h0 hl, swap_loop _ _ _ _ _ h0 hlb, hb0, key]
  cases hx : swapLoop p true (decide (0 ≤ amount.toInt)) b fuel (initState p true amount) with
  | error e => rfl
  | ok s =>
    rw [Except_bind_ok, Except_bind_ok]
    dsimp only [pure, Except.pure]
    rw [Except_bind_ok]
    by_cases h1 : s.remaining.toInt = 0
    · rw [if_pos h1, Except_bind_ok, if_pos (filled_iff.2 h1)]
    · rw [if_neg h1, if_neg (fun hc => h1 (filled_iff.1 hc))]
      rfl

/-- C88: from a price that is the price of a wall every sale of token0 runs for ever. -/
theorem C88_at {h : List Entry} {p : Pool} (hr : Reachable h p) {amount limit : U256} (h0 : amount.toNat ≠ 0)
    (ha : amount.toInt < 2 ^ 160) (hl : LimitValid p true limit) (hliq : ∃ t, grossAt h t ≠ 0)
    {w : Int} (hw : Wall p.spacing w) (hwp : p.price.toNat = tickPrice w) :
    Hangs fun fuel => p.swap fuel true amount limit := by
  intro fuel
  have hi := reachable_inv hr
  have hsp := hi.sp_pos
  have hw1 := hw.1
  have hw2 := hw.2.1
  obtain ⟨k, hk, hwk⟩ := wall_k (by omega) hw
  have hwr := hwp
  rw [tickPrice_eq hw2 (by omega)] at hwr
  have htlo := hi.tlo
  have hthi := hi.thi
  have hplo := hi.plo
  have hphi := hi.phi
  have t1 : w ≤ p.tick + 1 := by
    by_contra hc
    have := ratioN_lt (s := p.tick + 1) (t := w) (by omega) (by omega) (by omega)
    omega
  have t2 : p.tick ≤ w := by
    by_contra hc
    have := ratioN_lt (s := w) (t := p.tick) (by omega) (by omega) (by omega)
    omega
  by_cases t3 : p.tick = w - 1
  · exact C27_hang h p hr amount limit h0 ha hl hliq k hk (by omega) (by omega) (by rw [hwp, hwk]) fuel
  have hgood : ¬ SearchBroken p.spacing p.tick := by
    rintro ⟨k', _, k1, k2⟩
    have hdvd : p.spacing ∣ 256 * k' * p.spacing - w := by
      rw [hwk, ← sub_mul]
      exact dvd_mul_left _ _
    have := Int.le_of_dvd (by omega) hdvd
    omega
  obtain ⟨t, ht⟩ := hliq
  have hs0 := init_sinv hi ha ((limitValid_iff _ _ _).1 hl) (fun _ => clear_good (h := h) hgood)
  have hmin := (hs0.down rfl).2
  have hl' := hl
  unfold LimitValid at hl'
  rw [if_pos rfl, swapLimit_eq] at hl'
  have key := loop_barrier (p := p) hi.fee0 hi.fee1 hsp ht hk (by omega) (b := p.price) (by rw [hwr, hwk]) hl'.2 hmin fuel
    (initState p true amount) (sinv_wall hs0 hl'.2 (le_refl _)) ⟨rfl, Or.inl hgood⟩
  dsimp only
  rw [swap_loop _ _ _ _ _ h0 hl, key]
  cases fuel with
  | zero => rfl
  | succ n =>
    have r2 : running p.price (initState p true amount) = false := Bool.eq_false_iff.2 fun hc => (running_iff.1 hc).2 rfl
    have h3 : ¬ (initState p true amount).remaining.toInt = 0 := fun hc => h0 (toInt_eq_zero.1 hc)
    rw [loop_stop r2 (by omega), Except_bind_ok, if_neg h3]
    rfl

/-- C88: the sale returns exactly if the wall lets it trade the whole amount. -/
theorem C88_iff {h : List Entry} {p : Pool} (hr : Reachable h p) {amount limit : U256} (h0 : amount.toNat ≠ 0)
    (ha : amount.toInt < 2 ^ 160) (hl : LimitValid p true limit) (hliq : ∃ t, grossAt h t ≠ 0)
    (hgood : ¬ SearchBroken p.spacing p.tick) {w : Int} (hw : Wall p.spacing w) {b : U256} (hb : b.toNat = tickPrice w)
    (hlw : swapLimit true limit < tickPrice w) (hwp : tickPrice w < p.price.toNat) :
    Finishes (fun fuel => p.swap fuel true amount limit) ↔ ∃ fuel r, p.swap fuel true amount b = .ok r ∧ FullyTraded true amount r := by
  constructor
  · rintro ⟨fuel, r, hx⟩
    dsimp only at hx
    rw [C88_sale hr h0 ha hl hliq hgood hw hb hlw hwp] at hx
    obtain ⟨r', h1, h2⟩ := bind_ok hx
    by_cases hc : FullyTraded true amount r'
    · exact ⟨fuel, r', h1, hc⟩
    · rw [if_neg hc] at h2
      cases h2
  · rintro ⟨fuel, r, hx, hc⟩
    refine ⟨fuel, r, ?_⟩
    dsimp only
    rw [C88_sale hr h0 ha hl hliq hgood hw hb hlw hwp, hx, Except_bind_ok, if_pos hc]

/-- C88: below a price of `2^128`, with no further wall in between, the sale returns within one loop iteration per tick
or runs for ever. -/
theorem C88_decides {h : List Entry} {p : Pool} (hr : Reachable h p) {amount limit : U256} (h0 : amount.toNat ≠ 0)
    (ha : amount.toInt < 2 ^ 160) (hl : LimitValid p true limit) (hliq : ∃ t, grossAt h t ≠ 0)
    (hgood : ¬ SearchBroken p.spacing p.tick) (hP : p.price.toNat < 2 ^ 128) {w : Int} (hw : Wall p.spacing w) {b : U256} (hb : b.toNat = tickPrice w)
    (hlw : swapLimit true limit < tickPrice w) (hwp : tickPrice w < p.price.toNat)
    (hnext : ∀ w', Wall p.spacing w' → w < w' → p.price.toNat < tickPrice w') {fuel : Nat} (hf : (p.tick + 887272).toNat + 2 ≤ fuel) :
    ∃ r, p.swap fuel true amount b = .ok r ∧
      ((FullyTraded true amount r ∧ p.swap fuel true amount limit = .ok r) ∨
       (¬ FullyTraded true amount r ∧ Hangs fun fuel => p.swap fuel true amount limit)) := by
  have hi := reachable_inv hr
  have hw1 := hw.1
  have hw2 := hw.2.1
  have hwr := tickPrice_eq hw2 (by omega)
  have hb0 : swapLimit true b = b.toNat := by
    unfold swapLimit
    rw [if_neg (by omega)]
  have hlb : LimitValid p true b := by
    unfold LimitValid at hl ⊢
    rw [if_pos rfl] at hl ⊢
    rw [hb0]
    omega
  have hret : ∀ fuel, (p.tick + 887272).toNat + 2 ≤ fuel → ∃ r, p.swap fuel true amount b = .ok r := by
    intro fuel hf
    rcases C27_down h p hr amount b h0 ha hlb hliq hgood (by
      intro k hk1 hk2 hk3
      have hneg : 256 * k * p.spacing ≤ 0 := Int.mul_nonpos_of_nonpos_of_nonneg (by omega) (by have := hi.sp_pos; omega)
      refine hnext _ ⟨hneg, hk2, k, rfl⟩ ?_
      by_contra hc
      rw [hb0, hb, hwr, tickPrice_eq hk2 (by omega)] at hk3
      have := ratioN_le hk2 (not_lt.1 hc) (by omega)
      omega) fuel hf with h1 | ⟨_, h1⟩
    · exact h1
    · omega
  obtain ⟨r, hx⟩ := hret fuel hf
  refine ⟨r, hx, ?_⟩
  have key := fun fuel => C88_sale hr h0 ha hl hliq hgood hw hb hlw hwp fuel
  by_cases hc : FullyTraded true amount r
  · left
    refine ⟨hc, ?_⟩
    rw [key, hx, Except_bind_ok, if_pos hc]
  · right
    refine ⟨hc, fun fuel' => ?_⟩
    dsimp only
    rw [key]
    rcases Nat.le_total fuel fuel' with hle | hle
    · rcases swap_fuel (p := p) (z := true) (amount := amount) (limit := b) hle with h1 | h1
      · rw [hx] at h1; cases h1
      · rw [h1, hx, Except_bind_ok, if_neg hc]
    · rcases swap_fuel (p := p) (z := true) (amount := amount) (limit := b) hle with h1 | h1
      · rw [h1]; rfl
      · rw [← h1, hx, Except_bind_ok, if_neg hc]

/-- The number of loop iterations allowed matters only if it is too small: a call with more of them has the same outcome. -/
theorem C88_fuel {p : Pool} {z : Bool} {amount limit : U256} {f f' : Nat} (hf : f ≤ f') (h : p.swap f z amount limit ≠ .error .fuel) :
    p.swap f' z amount limit = p.swap f z amount limit := (swap_fuel hf).resolve_left h

/-- C88: a swap that stops at its limit with something left to trade: a swap of a larger amount with that limit has the
same result and leaves the same pool. -/
theorem C88_rest {h : List Entry} {p : Pool} (hr : Reachable h p) {fuel fuel' : Nat} {z : Bool} {a b limit : U256} {r r' : U256 × U256 × Pool}
    (hg : z = true → ClearAbove p.spacing p.tick h) (hab : AtLeast a b) (ha : a.toInt < 2 ^ 160) (hb : b.toInt < 2 ^ 160)
    (hx : p.swap fuel z a limit = .ok r) (hy : p.swap fuel' z b limit = .ok r') (hn : ¬ FullyTraded z a r) : r' = r := by
  have hi := reachable_inv hr
  obtain ⟨r0, r1, p'⟩ := r
  obtain ⟨u0, u1, q'⟩ := r'
  obtain ⟨_, h2, s, h3, h4, h5⟩ := swap_eq hx
  obtain ⟨_, _, t, k3, k4, k5⟩ := swap_eq hy
  have h6 := init_sinv hi ha h2 hg
  have k6 := init_sinv hi hb h2 hg
  unfold AtLeast at hab
  have hsame : decide (0 ≤ b.toInt) = decide (0 ≤ a.toInt) := by
    rw [decide_eq_decide]; omega
  rw [hsame] at k3 k4 k6
  obtain ⟨e0, e1⟩ : r0 = (swapResult z (decide (0 ≤ a.toInt)) a s).1 ∧ r1 = (swapResult z (decide (0 ≤ a.toInt)) a s).2 := by
    rw [← h4]; exact ⟨rfl, rfl⟩
  have hrem : s.remaining.toInt ≠ 0 := fun hc => hn (by rw [e0, e1]; exact filled_iff.2 hc)
  obtain ⟨q1, q2⟩ := loop_rest hi.fee0 hi.fee1 fuel fuel' h6 k6 rfl
    (by
      intro he
      have := of_decide_eq_true he
      show a.toInt ≤ b.toInt
      omega)
    (by
      intro he
      have := of_decide_eq_false he
      show b.toInt ≤ a.toInt
      omega) h3 k3 hrem
  change b.toInt - t.remaining.toInt = a.toInt - s.remaining.toInt at q2
  have hsub : sub b t.remaining = sub a s.remaining := by
    apply ext_toNat
    rw [toNat_sub, toNat_sub]
    have := toInt_emod a
    have := toInt_emod b
    have := toInt_emod s.remaining
    have := toInt_emod t.remaining
    have := toNat_lt s.remaining
    have := toNat_lt t.remaining
    omega
  have hcalc : t.calculated = s.calculated := by rw [q1]
  rw [k5, h5, show (r0, r1, afterSwap p z s) = ((r0, r1).1, (r0, r1).2, afterSwap p z s) from rfl,
    show (u0, u1, afterSwap p z t) = ((u0, u1).1, (u0, u1).2, afterSwap p z t) from rfl, h4, k4]
  have hpool : afterSwap p z t = afterSwap p z s := by rw [q1]; rfl
  unfold swapResult
  rw [hsub, hcalc, hpool]

/-- No more is traded than was asked for. -/
theorem swap_cap {h : List Entry} {p : Pool} (hi : Inv h p) {fuel : Nat} {z : Bool} {a limit : U256} {r : U256 × U256 × Pool}
    (hc : z = true → ClearAbove p.spacing p.tick h) (ha : a.toInt < 2 ^ 160) (hx : p.swap fuel z a limit = .ok r) :
    (0 < a.toInt → sold z r ≤ a.toInt) ∧ (a.toInt < 0 → a.toInt ≤ bought z r) := by
  obtain ⟨r0, r1, p'⟩ := r
  obtain ⟨_, h2, s, h3, h4, h5⟩ := swap_eq hx
  have h6 := init_sinv hi ha h2 hc
  obtain ⟨⟨i, o, f, h7⟩, h8, _⟩ := loop_run h6 hi.fee0 hi.fee1 h3
  obtain ⟨a1, a2⟩ := swap_amounts hi h6 h7 h8 (p' := p') h4
  rw [a1, a2]
  constructor
  · intro h0
    have e : decide (0 ≤ a.toInt) = true := decide_eq_true (by omega)
    have h9 := (run_rem h7).1 e
    have := h8.remIn e
    change s.remaining.toInt = a.toInt - (i + f) at h9
    omega
  · intro h0
    have e : decide (0 ≤ a.toInt) = false := decide_eq_false (by omega)
    have h9 := (run_rem h7).2 e
    have := h8.remOut e
    change s.remaining.toInt = a.toInt + o at h9
    omega

/-- C88: how much can be sold.  If the sale of some amount `N` stops at the wall below the price, then exactly the sales
of no more than it traded return: the others run for ever. -/
theorem C88_capacity {h : List Entry} {p : Pool} (hr : Reachable h p) {limit : U256} (hl : LimitValid p true limit)
    (hliq : ∃ t, grossAt h t ≠ 0) (hgood : ¬ SearchBroken p.spacing p.tick) (hP : p.price.toNat < 2 ^ 128)
    {w : Int} (hw : Wall p.spacing w) {b : U256} (hb : b.toNat = tickPrice w)
    (hlw : swapLimit true limit < tickPrice w) (hwp : tickPrice w < p.price.toNat)
    (hnext : ∀ w', Wall p.spacing w' → w < w' → p.price.toNat < tickPrice w')
    {N : U256} (hN : N.toInt < 2 ^ 160) {fuel : Nat} {q : U256 × U256 × Pool} (hq : p.swap fuel true N b = .ok q) (hnf : ¬ FullyTraded true N q)
    {a : U256} (ha : a.toInt < 2 ^ 160) :
    (0 < N.toInt → 0 < a.toInt →
      (a.toInt ≤ sold true q → Finishes fun fuel => p.swap fuel true a limit) ∧
      (sold true q < a.toInt → Hangs fun fuel => p.swap fuel true a limit)) ∧
    (N.toInt < 0 → a.toInt < 0 →
      (bought true q ≤ a.toInt → Finishes fun fuel => p.swap fuel true a limit) ∧
      (a.toInt < bought true q → Hangs fun fuel => p.swap fuel true a limit)) := by
  have hi := reachable_inv hr
  have hc : true = true → ClearAbove p.spacing p.tick h := fun _ => clear_good hgood
  -- the sale limited to the wall returns
  have dec : a.toInt ≠ 0 → ∃ fuel' r, p.swap fuel' true a b = .ok r ∧
      ((FullyTraded true a r ∧ Finishes fun fuel => p.swap fuel true a limit) ∨ (¬ FullyTraded true a r ∧ Hangs fun fuel => p.swap fuel true a limit)) := by
    intro h0
    obtain ⟨r, h1, h2⟩ := C88_decides hr (amount := a) (fun e => h0 (toInt_eq_zero.2 e)) ha hl hliq hgood hP hw hb hlw hwp hnext (le_refl _)
    refine ⟨_, r, h1, ?_⟩
    rcases h2 with ⟨h2, h3⟩ | h2
    · exact Or.inl ⟨h2, _, r, h3⟩
    · exact Or.inr h2
  -- the two trades limited to the wall compared
  have cmpr : ∀ {fuel' : Nat} {r : U256 × U256 × Pool}, p.swap fuel' true a b = .ok r →
      (AtLeast a N → (FullyTraded true a r ∨ r = q) ∧ sold true r ≤ sold true q ∧ bought true q ≤ bought true r) ∧ (AtLeast N a → r = q) := by
    intro fuel' r hx
    refine ⟨fun hle => ⟨?_, ?_⟩, fun hle => C88_rest hr hc hle hN ha hq hx hnf⟩
    · by_cases hf : FullyTraded true a r
      · exact Or.inl hf
      · exact Or.inr (C88_rest hr hc hle ha hN hx hq hf).symm
    · have hm := swap_mono hi hc (by rcases hle with hle | hle <;> [left; right] <;> omega) hx hq
      exact ⟨hm.1, hm.2.1⟩
  constructor
  · intro n0 a0
    obtain ⟨f, r, hx, hdec⟩ := dec (by omega)
    obtain ⟨c1, c2⟩ := cmpr hx
    have ff : ∀ {x : U256} {r}, 0 < x.toInt → (FullyTraded true x r ↔ sold true r = x.toInt) := by
      intro x r h0
      unfold FullyTraded
      rw [if_pos (by omega)]
    rw [ff a0] at hdec c1
    rw [ff n0] at hnf
    have hqN : sold true q ≤ N.toInt := by
      have := swap_cap hi hc hN hq
      exact this.1 n0
    constructor
    · intro hle
      rcases hdec with hd | hd
      · exact hd.2
      · exfalso
        obtain ⟨c3, c4, _⟩ := c1 (Or.inl ⟨a0, by omega⟩)
        rcases c3 with c3 | c3
        · exact hd.1 c3
        · have := (swap_cap hi hc ha hx).1 a0
          have := hd.1
          rw [c3] at *
          omega
    · intro hlt
      rcases hdec with hd | hd
      · exfalso
        have h1 := hd.1
        by_cases hle : a.toInt ≤ N.toInt
        · have := (c1 (Or.inl ⟨a0, hle⟩)).2.1
          omega
        · rw [c2 (Or.inl ⟨n0, by omega⟩)] at h1
          omega
      · exact hd.2
  · intro n0 a0
    obtain ⟨f, r, hx, hdec⟩ := dec (by omega)
    obtain ⟨c1, c2⟩ := cmpr hx
    have ff : ∀ {x : U256} {r}, x.toInt < 0 → (FullyTraded true x r ↔ bought true r = x.toInt) := by
      intro x r h0
      unfold FullyTraded
      rw [if_neg (by omega)]
    rw [ff a0] at hdec c1
    rw [ff n0] at hnf
    have hqN : N.toInt ≤ bought true q := by
      have := swap_cap hi hc hN hq
      exact this.2 n0
    constructor
    · intro hle
      rcases hdec with hd | hd
      · exact hd.2
      · exfalso
        obtain ⟨c3, _, c4⟩ := c1 (Or.inr ⟨by omega, a0⟩)
        rcases c3 with c3 | c3
        · exact hd.1 c3
        · have := (swap_cap hi hc ha hx).2 a0
          have := hd.1
          rw [c3] at *
          omega
    · intro hlt
      rcases hdec with hd | hd
      · exfalso
        have h1 := hd.1
        by_cases hle : N.toInt ≤ a.toInt
        · have := (c1 (Or.inr ⟨hle, a0⟩)).2.2
          omega
        · rw [c2 (Or.inr ⟨by omega, n0⟩)] at h1
          omega
      · exact hd.2

/-- C88: a sale of token0 from a tick at which the tick search is broken.  It buys token0 instead: it returns exactly if
the amount is used up before, or exactly when, the price has risen to the wall above; otherwise it runs for ever. -/
theorem C88_broken {h : List Entry} {p : Pool} (hr : Reachable h p) {amount limit : U256}
    (ha : amount.toInt < 2 ^ 160) (hl : LimitValid p true limit) (hliq : ∃ t, grossAt h t ≠ 0)
    (hc : ClearAbove p.spacing p.tick h) {w : Int} (hw : Wall p.spacing w) (h1 : w - p.spacing < p.tick) (h2 : p.tick < w) :
    (0 < amount.toInt → ∀ i, i = amount1Up p.price.toNat (tickPrice w) p.liquidity.toNat →
      (amount.toInt ≤ (i + ceilDiv (i * p.fee.toNat) (1000000 - p.fee.toNat) : Nat) → Finishes fun fuel => p.swap fuel true amount limit) ∧
      ((i + ceilDiv (i * p.fee.toNat) (1000000 - p.fee.toNat) : Nat) < amount.toInt → Hangs fun fuel => p.swap fuel true amount limit)) ∧
    (amount.toInt < 0 → ∀ o, o = amount0Down p.price.toNat (tickPrice w) p.liquidity.toNat →
      (-(o : Int) ≤ amount.toInt → Finishes fun fuel => p.swap fuel true amount limit) ∧
      (amount.toInt < -(o : Int) → Hangs fun fuel => p.swap fuel true amount limit)) := by
  have hi := reachable_inv hr
  have hsp := hi.sp_pos
  have hff : p.fee.toNat < 1000000 := by have := hi.fee0; have := hi.fee1; omega
  have hw1 := hw.1
  have hw2 := hw.2.1
  obtain ⟨k, hk, hwk⟩ := wall_k (by omega) hw
  rw [tickPrice_eq hw2 (by omega)]
  obtain ⟨t, ht⟩ := hliq
  have hs0 := init_sinv hi ha ((limitValid_iff _ _ _).1 hl) (fun _ => hc)
  have hl' := hl
  unfold LimitValid at hl'
  rw [if_pos rfl, swapLimit_eq] at hl'
  have main : amount.toInt ≠ 0 → ∃ s1 st target, StepFacts p h true (decide (0 ≤ amount.toInt)) (effLimit true limit) (initState p true amount) s1 st target ∧
      RemFacts (decide (0 ≤ amount.toInt)) (initState p true amount) s1 st target ∧ target.toNat = ratioN w ∧ p.price.toNat ≤ target.toNat ∧
      (s1.remaining.toInt = 0 → Finishes fun fuel => p.swap fuel true amount limit) ∧
      (s1.remaining.toInt ≠ 0 → Hangs fun fuel => p.swap fuel true amount limit) := by
    intro h0
    have h0' : amount.toNat ≠ 0 := fun e => h0 (toInt_eq_zero.2 e)
    obtain ⟨s1, st, target, _, q1, q2, q3, q4, q5, q6⟩ := loop_broken (s := initState p true amount) hi.fee0 hi.fee1 hsp ht hk hs0
      (by show _ < p.tick; omega) (by show p.tick < _; omega) (running_iff.2 ⟨h0, by show p.price.toNat ≠ _; omega⟩)
    refine ⟨s1, st, target, q1, q2, by rw [q3, hwk], q4, fun e => ?_, fun e => ?_⟩
    · have hx : p.swap 2 true amount limit = .ok ((swapResult true (decide (0 ≤ amount.toInt)) amount s1).1,
          (swapResult true (decide (0 ≤ amount.toInt)) amount s1).2, afterSwap p true s1) := by
        rw [swap_loop _ _ _ _ _ h0' hl, q5 e 0]
        rfl
      exact ⟨2, _, hx⟩
    · intro fuel
      dsimp only
      rw [swap_loop _ _ _ _ _ h0' hl, q6 e fuel]
      rfl
  -- the one step, towards a price at or above the current one
  have side : ∀ {T : Nat}, p.price.toNat ≤ T → ∀ n, n = p.price.toNat ∨ (p.price.toNat ≤ n ∧ n ≤ T) →
      inAmount (decide (T ≤ p.price.toNat)) p.price.toNat T p.liquidity.toNat = amount1Up p.price.toNat T p.liquidity.toNat ∧
      outAmount (decide (T ≤ p.price.toNat)) p.price.toNat T p.liquidity.toNat = amount0Down p.price.toNat T p.liquidity.toNat := by
    intro T hT n _
    by_cases he : T = p.price.toNat
    · subst he
      rw [decide_eq_true (le_refl _), SwapMath.inAmount_t, SwapMath.outAmount_t]
      rw [LiquidityAmounts.amount0Up_self, LiquidityAmounts.amount1Up_self, LiquidityAmounts.amount1Down_self, LiquidityAmounts.amount0Down_self]
      exact ⟨rfl, rfl⟩
    · rw [decide_eq_false (by omega), SwapMath.inAmount_f, SwapMath.outAmount_f]
      exact ⟨rfl, rfl⟩
  constructor
  · rintro a0 i hiq
    obtain ⟨s1, st, target, f1, f2, f3, f4, f5, f6⟩ := main (by omega)
    have e : decide (0 ≤ amount.toInt) = true := decide_eq_true (by omega)
    have hrem := f2.remIn e
    change s1.remaining.toInt = amount.toInt - _ at hrem
    have hsd := (side f4 _ (Or.inl rfl)).1
    rw [f3, ← hiq] at hsd
    have spc := f1.spec
    change Spec.SwapStep p.price.toNat target.toNat p.liquidity.toNat amount.toInt p.fee.toNat _ _ _ _ at spc
    have reach : (i + ceilDiv (i * p.fee.toNat) (1000000 - p.fee.toNat) : Nat) ≤ amount.toInt →
        s1.remaining.toInt = amount.toInt - (i + ceilDiv (i * p.fee.toNat) (1000000 - p.fee.toNat) : Nat) := by
      intro hle
      have hb := budget_reach (r := amount.toInt.toNat) (i := i) hff (by omega)
      have hn : st.next.toNat = target.toNat := by
        apply spc.reachIn (by omega)
        rw [f3, hsd]
        have : ((amount.toInt.toNat * (1000000 - p.fee.toNat) / 1000000 : Nat) : Int) =
            amount.toInt * ((1000000 - p.fee.toNat : Nat) : Int) / 1000000 := by
          rw [Int.natCast_ediv, Int.natCast_mul, Int.toNat_of_nonneg (by omega)]
          rfl
        rw [← this]
        exact_mod_cast hb
      have hin := spc.input
      rw [hn, f3, hsd] at hin
      have hfee := spc.feeExact (Or.inr hn)
      rw [hin] at hfee
      rw [hrem, hin, hfee]
      push_cast
      omega
    constructor
    · intro hle
      apply f5
      by_cases hn : st.next.toNat = target.toNat
      · have hin := spc.input
        rw [hn, f3, hsd] at hin
        have hfee := spc.feeExact (Or.inr hn)
        rw [hin] at hfee
        have := spc.budget (by omega)
        omega
      · exact f2.done (by rw [f1.price]; exact hn)
    · intro hlt
      apply f6
      have := reach (by omega)
      omega
  · rintro a0 o ho
    obtain ⟨s1, st, target, f1, f2, f3, f4, f5, f6⟩ := main (by omega)
    have e : decide (0 ≤ amount.toInt) = false := decide_eq_false (by omega)
    have hrem := f2.remOut e
    change s1.remaining.toInt = amount.toInt + _ at hrem
    have hsd := (side f4 _ (Or.inl rfl)).2
    rw [f3, ← ho] at hsd
    have spc := f1.spec
    change Spec.SwapStep p.price.toNat target.toNat p.liquidity.toNat amount.toInt p.fee.toNat _ _ _ _ at spc
    constructor
    · intro hle
      apply f5
      by_cases hn : st.next.toNat = target.toNat
      · have hout := spc.outputOut (by omega)
        rw [hn, f3, hsd] at hout
        omega
      · exact f2.done (by rw [f1.price]; exact hn)
    · intro hlt
      apply f6
      have hn := spc.reachOut (by omega) (by rw [f3, hsd]; omega)
      have hout := spc.outputOut (by omega)
      rw [hn, f3, hsd] at hout
      omega

/-! ### Concrete runs: the demo pool between the wall at tick 0 and tick 180 -/

namespace SaleDemo

theorem walled : Wall Demo.p3.spacing 0 := ⟨le_refl _, by norm_num, 0, by norm_num⟩
theorem only : ∀ w', Wall Demo.p3.spacing w' → 0 < w' → Demo.p3.price.toNat < tickPrice w' := fun w' h1 h2 => absurd h1.1 (by omega)
theorem valid : LimitValid Demo.p3 true zero := by unfold LimitValid; decide +kernel

/-- Selling `10^8` down to the wall, and asking for `10^8` of token1. -/
def q : U256 × U256 × Pool := getOk (Demo.p3.swap 10 true (ofNat 100000000) (ofNat (2 ^ 96))) (by decide +kernel)
def o : U256 × U256 × Pool := getOk (Demo.p3.swap 10 true (neg (ofNat 100000000)) (ofNat (2 ^ 96))) (by decide +kernel)

end SaleDemo

open SaleDemo in
/-- C88: of the demo pool 7954 units of token0 can be sold, and no more: every larger sale runs for ever. -/
example {a : U256} (h0 : 0 < a.toInt) (h1 : a.toInt < 2 ^ 160) :
    (a.toInt ≤ 7954 → Finishes fun fuel => Demo.p3.swap fuel true a zero) ∧
    (7954 < a.toInt → Hangs fun fuel => Demo.p3.swap fuel true a zero) := by
  have h := (C88_capacity (Demo.reachable Demo.r3) valid ⟨60, by decide +kernel⟩ Demo.good93 (by decide +kernel) walled
    (b := ofNat (2 ^ 96)) (by decide +kernel) (by decide +kernel) (by decide +kernel) only (N := ofNat 100000000) (by decide +kernel)
    (fuel := 10) (q := q) (eq_getOk _ _) (by decide +kernel) h1).1 (by decide +kernel) h0
  rw [show sold true q = 7954 by decide +kernel] at h
  exact h

open SaleDemo in
/-- C88: and 7973 units of token1 can be bought for token0, and no more. -/
example {a : U256} (h0 : a.toInt < 0) :
    (-7973 ≤ a.toInt → Finishes fun fuel => Demo.p3.swap fuel true a zero) ∧
    (a.toInt < -7973 → Hangs fun fuel => Demo.p3.swap fuel true a zero) := by
  have h := (C88_capacity (Demo.reachable Demo.r3) valid ⟨60, by decide +kernel⟩ Demo.good93 (by decide +kernel) walled
    (b := ofNat (2 ^ 96)) (by decide +kernel) (by decide +kernel) (by decide +kernel) only (N := neg (ofNat 100000000)) (by decide +kernel)
    (fuel := 10) (q := o) (eq_getOk _ _) (by decide +kernel) (a := a) (by omega)).2 (by decide +kernel) h0
  rw [show bought true o = -7973 by decide +kernel] at h
  exact h

/-- C88: the demo pools stand on the wall at tick 0, before the first swap and after the swap that stopped there. -/
example : (Hangs fun fuel => Demo.p2.swap fuel true (ofNat 1) zero) ∧ (Hangs fun fuel => Demo.p4.swap fuel true (ofNat 1) zero) :=
  ⟨C88_at (Demo.reachable Demo.r2) (by decide +kernel) (by decide +kernel) (by unfold LimitValid; decide +kernel) ⟨60, by decide +kernel⟩
    (w := 0) ⟨le_refl _, by norm_num, 0, by norm_num⟩ (by decide +kernel),
   C88_at (Demo.reachable Demo.r4) (by decide +kernel) (by decide +kernel) (by unfold LimitValid; decide +kernel) ⟨60, by decide +kernel⟩
    (w := 0) ⟨le_refl _, by norm_num, 0, by norm_num⟩ (by decide +kernel)⟩

open SaleDemo in
/-- C88: two sales that stop at the limit, and the sale of one of them without the limit. -/
example : Demo.p3.swap 10 true (ofNat 100000000) (ofNat (2 ^ 96)) = .ok q ∧ ¬ FullyTraded true (ofNat 100000000) q ∧
    AtLeast (ofNat 100000000) (ofNat 100000001) ∧ isOk (Demo.p3.swap 10 true (ofNat 100000001) (ofNat (2 ^ 96))) = true :=
  ⟨eq_getOk _ _, by decide +kernel, by unfold AtLeast; decide +kernel, by decide +kernel⟩

/-- C88: at tick -8 of the demo pool, where the search is broken, 358 units can be traded and no more. -/
example {a : U256} (h0 : 0 < a.toInt) (h1 : a.toInt < 2 ^ 160) :
    (a.toInt ≤ 358 → Finishes fun fuel => Demo.b1.swap fuel true a zero) ∧
    (358 < a.toInt → Hangs fun fuel => Demo.b1.swap fuel true a zero) := by
  have hc : ClearAbove Demo.b1.spacing Demo.b1.tick Demo.h1 := by
    intro k _ k1 j j1 j2
    by_contra hg
    have h3 := Demo.aligned1 j hg
    rw [show Demo.b1.spacing = 60 by decide +kernel] at k1 j2
    rw [show Demo.b1.tick = -8 by decide +kernel] at k1 j1
    omega
  have h := (C88_broken Demo.reachable_b (amount := a) h1 (limit := zero) (by unfold LimitValid; decide +kernel) ⟨180, by decide +kernel⟩ hc
    (w := 0) ⟨le_refl _, by norm_num, 0, by norm_num⟩ (by decide +kernel) (by decide +kernel)).1 h0 356 (by decide +kernel)
  rw [show (356 + ceilDiv (356 * Demo.b1.fee.toNat) (1000000 - Demo.b1.fee.toNat) : Nat) = 358 by decide +kernel] at h
  exact h

end Props
end Uni
