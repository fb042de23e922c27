import Verif.Proofs.History
import Verif.Props.Returns
/-! # C97: the averages used by the strategies -/
namespace Uni
namespace Props
open U256 Spec TickMath Pool Strat

theorem window_full {n : Nat} {vs : List Nat} (h : n ≤ vs.length) : window n vs = vs.drop (vs.length - n) := by
  unfold window
  rw [List.drop_append, List.drop_eq_nil_of_le (by rw [List.length_replicate]; exact h), List.length_replicate, List.nil_append]

theorem history_record {kind : Kind} {x y : U256} {p : Pool} {s0 s : Strat} {n : Int} {fuel : Nat} {es : List Event} {xs : List U256}
    (h0 : Strat.new kind x y p = .ok s0) (hm : memory kind = some n) (h : Sees fuel es s0 xs s) :
    s.kind = kind ∧ 0 ≤ n ∧ record n.toNat xs = .ok s.history := by
  obtain ⟨k1, k2, k3⟩ := new_record h0 hm
  obtain ⟨k4, k5⟩ := sees_history h (by rw [k1]; exact hm)
  refine ⟨k4.trans k1, k2, ?_⟩
  unfold record
  rw [k3, Except_bind_ok]
  exact k5

/-- C97: whatever happens in a run, some prices have been seen at its price snapshots. -/
theorem C97_seen {fuel : Nat} {es : List Event} {s s' : Strat} : (∃ vs, Trace fuel es s vs s') ↔ ∃ xs, Sees fuel es s xs s' :=
  ⟨fun ⟨_, h⟩ => trace_sees h, fun ⟨_, h⟩ => sees_trace h⟩

/-- C97: the average is the mean of the squares of the last `n` prices at the price snapshots, whatever else has happened
before, between and after them.  Prices that are missing because there have been fewer than `n` snapshots count as zero. -/
theorem C97_average {kind : Kind} {x y : U256} {p : Pool} {s0 s : Strat} {n : Int} {fuel : Nat} {es : List Event} {xs : List U256}
    (h0 : Strat.new kind x y p = .ok s0) (hm : memory kind = some n) (hn : 1 ≤ n) (hn2 : n ≤ 2 ^ 26) (h : Sees fuel es s0 xs s)
    (hx : ∀ x ∈ latest n.toNat xs, x.toNat < 2 ^ 128) :
    ∃ avg, s.history.average = .ok avg ∧ avg.toNat = squareSum (latest n.toNat xs) / n.toNat := by
  obtain ⟨_, _, hr⟩ := history_record h0 hm h
  obtain ⟨avg, h1, _, h2⟩ := C44_average n.toNat (by omega) (by omega) xs _ hr
  refine ⟨avg, h1, ?_⟩
  rw [(h2 (by omega)).1, stored_latest hx]

/-- C97: a price snapshot fails exactly if the square of the price, in 256 bits, has more than 230 bits; it then panics. -/
theorem C97_refused {kind : Kind} {x y : U256} {p : Pool} {s0 s : Strat} {n : Int} {fuel : Nat} {es : List Event} {xs : List U256}
    (h0 : Strat.new kind x y p = .ok s0) (hm : memory kind = some n) (hn : 1 ≤ n) (h : Sees fuel es s0 xs s) :
    (∃ s', Event.price.Does fuel s [] s') ↔ s.pool.price.toNat ^ 2 % 2 ^ 256 < 2 ^ 230 := by
  obtain ⟨hk, _, hr⟩ := history_record h0 hm h
  have hall := fun zs => C43_window n.toNat (by omega) zs
  have hs : ∀ q, record n.toNat (xs ++ [s.pool.price]) = .ok q ↔ s.history.add s.pool.price = .ok q := by
    intro q
    unfold record at hr ⊢
    obtain ⟨p0, e0, hr⟩ := bind_ok hr
    rw [e0, Except_bind_ok, List.foldlM_append]
    rw [show xs.foldlM Prices.add p0 = .ok s.history from hr, Except_bind_ok, List.foldlM_cons]
    constructor
    · intro h
      obtain ⟨z, h1, h2⟩ := bind_ok h
      cases h2
      exact h1
    · intro h
      rw [h]; rfl
  constructor
  · rintro ⟨s', h1, _⟩
    obtain ⟨_, h2⟩ := price_mind (by rw [hk]; exact hm) h1
    have := (hall (xs ++ [s.pool.price])).1.1 ⟨_, (hs _).2 h2⟩
    exact this _ (by simp)
  · intro hp
    have hold := (hall xs).1.1 ⟨_, hr⟩
    obtain ⟨q, hq⟩ := (hall (xs ++ [s.pool.price])).1.2 (by
      intro z hz
      rcases List.mem_append.1 hz with h | h
      · exact hold z h
      · rw [List.mem_singleton.1 h]; exact hp)
    refine ⟨{ s with history := q }, ?_, rfl⟩
    rw [hs] at hq
    unfold Strat.makeSnapshot
    rw [hk]
    cases kind <;> cases hm <;> (dsimp only; rw [hq]; rfl)

theorem mean_bounds {n : Nat} (hn : 1 ≤ n) (hn2 : n ≤ 2 ^ 26) {xs : List U256} {q : Prices} (hr : record n xs = .ok q) (hl : n ≤ xs.length)
    {lo hi : Int} (hlo : -887272 ≤ lo) (hhi : hi < 887272)
    (hx : ∀ x ∈ latest n xs, x.toNat < 2 ^ 128 ∧ tickPrice lo ≤ x.toNat ∧ x.toNat < tickPrice (hi + 1)) {avg : U256} (ha : q.average = .ok avg) :
    tickPrice lo ≤ Nat.sqrt avg.toNat ∧ Nat.sqrt avg.toNat < tickPrice (hi + 1) := by
  obtain ⟨a, h1, _, h2⟩ := C44_average n hn (by omega) xs _ hr
  rw [ha] at h1
  cases h1
  obtain ⟨_, h3⟩ := h2 hn2
  have hw : window n (stored xs) = (latest n xs).map fun x => x.toNat ^ 2 := by
    have hlen : (stored xs).length = xs.length := by unfold stored; rw [List.length_map]
    rw [window_full (by rw [hlen]; exact hl), hlen]
    unfold stored latest
    rw [← List.map_drop]
    refine List.map_congr_left fun x h => Nat.mod_eq_of_lt ?_
    have := Nat.pow_lt_pow_left (hx x h).1 (show 2 ≠ 0 by norm_num)
    exact lt_of_lt_of_eq this (by norm_num)
  have hpos : 0 < tickPrice (hi + 1) := by
    have hne : latest n xs ≠ [] := by
      unfold latest
      intro h
      have := congrArg List.length h
      rw [List.length_drop] at this
      simp at this
      omega
    obtain ⟨z, hz⟩ := List.exists_mem_of_ne_nil _ hne
    have := (hx z hz).2.2
    omega
  obtain ⟨h4, h5⟩ := h3 (tickPrice lo ^ 2) ((tickPrice (hi + 1) - 1) ^ 2) (by
    intro v hv
    rw [hw] at hv
    obtain ⟨z, hz, rfl⟩ := List.mem_map.1 hv
    have := hx z hz
    exact ⟨Nat.pow_le_pow_left this.2.1 2, Nat.pow_le_pow_left (by omega) 2⟩)
  refine ⟨Nat.le_sqrt'.2 h4, Nat.sqrt_lt'.2 (lt_of_le_of_lt h5 ?_)⟩
  exact Nat.pow_lt_pow_left (by omega) (by norm_num)

theorem tick_between {P : Nat} {t lo hi : Int} (h : TickOf P t) (hlo : -887272 ≤ lo) (hle : lo ≤ hi) (hhi : hi < 887272)
    (h1 : tickPrice lo ≤ P) (h2 : P < tickPrice (hi + 1)) : lo ≤ t ∧ t ≤ hi := by
  obtain ⟨k1, k2, k3, k4⟩ := h
  constructor
  · by_contra hc
    have := Strat.tickPrice_mono (a := t + 1) (b := lo) (by omega) (by omega) (by omega)
    omega
  · by_contra hc
    have := Strat.tickPrice_mono (a := hi + 1) (b := t) (by omega) (by omega) (by omega)
    omega

/-- C97: the interval around the average.  After at least `n` price snapshots the interval that `Init` or `Rebalance` opens is
centred at a tick between the lowest and the highest tick of the last `n` prices. -/
theorem C97_centre {w n : Int} {x y : U256} {p : Pool} {s0 s : Strat} {fuel : Nat} {es : List Event} {xs : List U256}
    (h0 : Strat.new (.aroundAverage w n) x y p = .ok s0) (hn : 1 ≤ n) (hn2 : n ≤ 2 ^ 26) (h : Sees fuel es s0 xs s)
    (hl : n.toNat ≤ xs.length) {lo hi : Int} (hlo : -887272 ≤ lo) (hle : lo ≤ hi) (hhi : hi < 887272)
    (hx : ∀ x ∈ latest n.toNat xs, x.toNat < 2 ^ 128 ∧ tickPrice lo ≤ x.toNat ∧ x.toNat < tickPrice (hi + 1))
    {rs : List (Int × Int)} (hr : InitRanges s rs ∨ RebalanceRanges s rs) :
    ∃ t r, lo ≤ t ∧ t ≤ hi ∧ Centred s.pool.spacing t w r ∧ rs = [r] := by
  obtain ⟨hk, _, hrec⟩ := history_record h0 rfl h
  have hi' : InitRanges s rs := by
    rcases hr with hr | hr
    · exact hr
    · unfold RebalanceRanges at hr; rw [hk] at hr; exact hr
  unfold InitRanges at hi'
  rw [hk] at hi'
  obtain ⟨avg, t, r, h1, h2, h3, h4⟩ := hi'
  obtain ⟨b1, b2⟩ := mean_bounds (by omega) (by omega) hrec hl hlo hhi hx h1
  obtain ⟨c1, c2⟩ := tick_between h2 hlo hle hhi b1 b2
  exact ⟨t, r, c1, c2, h3, h4⟩

/-- C97: the Bollinger bands.  After at least `n` price snapshots the band reaches from at most the highest to at least the
lowest tick of the last `n` prices. -/
theorem C97_band {kind : Kind} {n k : Int} {x y : U256} {p : Pool} {s0 s : Strat} {fuel : Nat} {es : List Event} {xs : List U256}
    (h0 : Strat.new kind x y p = .ok s0) (hm : memory kind = some n) (hn : 1 ≤ n) (hn2 : n ≤ 2 ^ 26) (h : Sees fuel es s0 xs s)
    (hl : n.toNat ≤ xs.length) {lo hi : Int} (hlo : -887272 ≤ lo) (hle : lo ≤ hi) (hhi : hi < 887272)
    (hx : ∀ x ∈ latest n.toNat xs, x.toNat < 2 ^ 128 ∧ tickPrice lo ≤ x.toNat ∧ x.toNat < tickPrice (hi + 1))
    {r : Int × Int} (hr : AverageBand s k r) : r.1 ≤ hi ∧ lo ≤ r.2 := by
  obtain ⟨hk, _, hrec⟩ := history_record h0 hm h
  obtain ⟨avg, vol, h1, _, h2, h3⟩ := hr
  obtain ⟨b1, b2⟩ := mean_bounds (by omega) (by omega) hrec hl hlo hhi hx h1
  constructor
  · split at h2
    · omega
    · obtain ⟨k1, k2, k3, k4⟩ := h2
      by_contra hc
      have := Strat.tickPrice_mono (a := hi + 1) (b := r.1) (by omega) (by omega) (by omega)
      omega
  · split at h3
    · omega
    · obtain ⟨k1, k2, k3, k4⟩ := h3
      by_contra hc
      have := Strat.tickPrice_mono (a := r.2 + 1) (b := lo) (by omega) (by omega) (by omega)
      omega

/-- C97: the first `n` snapshots.  After `k` of them, at prices of at most `H`, the square of the price at the centre is at
most `k/n` times the square of `H`: the interval is opened below the market. -/
theorem C97_cold {w n : Int} {x y : U256} {p : Pool} {s0 s : Strat} {fuel : Nat} {es : List Event} {xs : List U256}
    (h0 : Strat.new (.aroundAverage w n) x y p = .ok s0) (hn : 1 ≤ n) (hn2 : n ≤ 2 ^ 26) (h : Sees fuel es s0 xs s)
    (hl : xs.length ≤ n.toNat) {H : Nat} (hH : H < 2 ^ 128) (hx : ∀ x ∈ xs, x.toNat ≤ H)
    {rs : List (Int × Int)} (hr : InitRanges s rs ∨ RebalanceRanges s rs) :
    ∃ t r, n.toNat * tickPrice t ^ 2 ≤ xs.length * H ^ 2 ∧ Centred s.pool.spacing t w r ∧ rs = [r] := by
  obtain ⟨hk, _, hrec⟩ := history_record h0 rfl h
  have hi' : InitRanges s rs := by
    rcases hr with hr | hr
    · exact hr
    · unfold RebalanceRanges at hr; rw [hk] at hr; exact hr
  unfold InitRanges at hi'
  rw [hk] at hi'
  obtain ⟨avg, t, r, h1, h2, h3, h4⟩ := hi'
  have he : latest n.toNat xs = xs := by unfold latest; rw [show xs.length - n.toNat = 0 by omega, List.drop_zero]
  obtain ⟨a, k1, k2⟩ := C97_average h0 rfl hn hn2 h (fun z hz => by
    rw [he] at hz
    have := hx z hz
    omega)
  rw [h1] at k1
  cases k1
  rw [he] at k2
  refine ⟨t, r, ?_, h3, h4⟩
  have hs : squareSum xs ≤ xs.length * H ^ 2 := by
    unfold squareSum
    have := Prices.sum_le (xs.map fun x => x.toNat ^ 2) (H ^ 2) (by
      intro v hv
      obtain ⟨z, hz, rfl⟩ := List.mem_map.1 hv
      exact Nat.pow_le_pow_left (hx z hz) 2)
    rw [List.length_map] at this
    exact this
  have ht : tickPrice t ^ 2 ≤ avg.toNat := Nat.le_sqrt'.1 h2.2.2.1
  calc n.toNat * tickPrice t ^ 2 ≤ n.toNat * avg.toNat := Nat.mul_le_mul_left _ ht
    _ ≤ squareSum xs := by rw [k2]; exact Nat.mul_div_le _ _
    _ ≤ _ := hs

/-- C97: a constant price.  After at least `n` snapshots of the price `P` in a row the interval around the average is centred
at the tick of `P`, and the Bollinger bands are empty: both ends are the tick of `P`. -/
theorem C97_flat {kind : Kind} {n k : Int} {x y : U256} {p : Pool} {s0 s : Strat} {fuel : Nat} {es : List Event} {xs : List U256} {P : U256}
    (h0 : Strat.new kind x y p = .ok s0) (hm : memory kind = some n) (hn : 1 ≤ n) (hn2 : n ≤ 2 ^ 26) (h : Sees fuel es s0 xs s)
    (hl : n.toNat ≤ xs.length) (hx : ∀ x ∈ latest n.toNat xs, x = P) (hP : minPrice ≤ P.toNat ∧ P.toNat < 2 ^ 128) :
    (∀ w, kind = .aroundAverage w n → ∀ rs, InitRanges s rs ∨ RebalanceRanges s rs →
      ∃ t r, TickOf P.toNat t ∧ Centred s.pool.spacing t w r ∧ rs = [r]) ∧
    (∀ r, AverageBand s k r → TickOf P.toNat r.1 ∧ r.2 = r.1) := by
  obtain ⟨hk, _, hrec⟩ := history_record h0 hm h
  have hlen : (latest n.toNat xs).length = n.toNat := by unfold latest; rw [List.length_drop]; omega
  have hrep : latest n.toNat xs = List.replicate n.toNat P := by
    rw [List.eq_replicate_iff]; exact ⟨hlen, hx⟩
  obtain ⟨a, k1, k2⟩ := C97_average h0 hm hn hn2 h (fun z hz => by rw [hx z hz]; exact hP.2)
  have ha : Nat.sqrt a.toNat = P.toNat := by
    rw [k2, hrep]
    unfold squareSum
    rw [List.map_replicate, List.sum_replicate, smul_eq_mul, Nat.mul_div_cancel_left _ (by omega), pow_two, Nat.sqrt_eq]
  constructor
  · rintro w rfl rs hr
    have hi' : InitRanges s rs := by
      rcases hr with hr | hr
      · exact hr
      · unfold RebalanceRanges at hr; rw [hk] at hr; exact hr
    unfold InitRanges at hi'
    rw [hk] at hi'
    obtain ⟨avg, t, r, h1, h2, h3, h4⟩ := hi'
    rw [k1] at h1
    cases h1
    rw [ha] at h2
    exact ⟨t, r, h2, h3, h4⟩
  · rintro r ⟨avg, vol, h1, h2, h3, h4⟩
    rw [k1] at h1
    cases h1
    have hn3 : 2 ≤ n.toNat := by
      by_contra hc
      rw [show n.toNat = 1 by omega] at hrec
      rw [C45_single xs _ hrec] at h2
      cases h2
    obtain ⟨v, k3, k4⟩ := C45_constant n.toNat hn3 (by omega) xs _ hrec (P.toNat ^ 2) (by
      intro v hv
      rw [window_full (by unfold stored; rw [List.length_map]; exact hl)] at hv
      unfold stored at hv
      rw [List.length_map, ← List.map_drop] at hv
      obtain ⟨z, hz, rfl⟩ := List.mem_map.1 hv
      rw [hx z hz]
      refine Nat.mod_eq_of_lt ?_
      have := Nat.pow_lt_pow_left hP.2 (show 2 ≠ 0 by norm_num)
      exact lt_of_lt_of_eq this (by norm_num))
    rw [k3] at h2
    cases h2
    have hb : bandHalf vol k = 0 := by unfold bandHalf; rw [k4]; simp
    rw [hb, ha] at h3 h4
    have hmax : P.toNat < maxPrice := lt_trans hP.2 (by unfold maxPrice; norm_num)
    rw [if_neg (by have := hP.1; omega)] at h3
    rw [if_neg (by omega)] at h4
    rw [Nat.sub_zero] at h3
    rw [Nat.add_zero] at h4
    exact ⟨h3, Strat.tickOf_unique h4 h3⟩

/-- C97: without any snapshot the strategies with an average panic when they start. -/
theorem C97_first {kind : Kind} {n : Int} {x y : U256} {p : Pool} {s0 : Strat} (h0 : Strat.new kind x y p = .ok s0)
    (hk : (∃ w, kind = .aroundAverage w n) ∨ (∃ k, kind = .bollinger n k) ∨ (∃ k, kind = .bollingerFillUp n k)) (hn : 1 ≤ n) (hn2 : n ≤ 2 ^ 26)
    (fuel : Nat) : s0.init fuel = .error .panic := by
  have hm : memory kind = some n := by rcases hk with ⟨w, rfl⟩ | ⟨w, rfl⟩ | ⟨w, rfl⟩ <;> rfl
  obtain ⟨hk0, _, hrec⟩ := history_record h0 hm (.nil (fuel := fuel))
  obtain ⟨a, k1, k2⟩ := C97_average h0 hm hn hn2 (.nil (fuel := fuel)) (by intro z hz; unfold latest at hz; simp at hz)
  have ha : a = zero := toNat_inj.1 (by rw [k2]; unfold latest squareSum; simp)
  subst ha
  obtain ⟨q, hq, hq2⟩ := sqrt_spec zero
  have hq0 : q = zero := toNat_inj.1 (by rw [hq2]; decide)
  subst hq0
  have hz : getTickAtSqrtRatio zero = .error .panic := TotalDemo.eq_panic (by decide +kernel)
  have hband : ∀ k, s0.bollingerTicks k = .error .panic := by
    intro k
    unfold Strat.bollingerTicks Strat.bandWidth
    by_cases hn1 : n = 1
    · subst hn1
      rw [C45_single [] _ hrec]; rfl
    · obtain ⟨v, k3, k4⟩ := C45_constant n.toNat (by omega) (by omega) [] _ hrec 0 (by
        intro v hv
        unfold window stored at hv
        simp at hv
        exact hv.2)
      have hv : v = zero := toNat_inj.1 (by rw [k4]; rfl)
      subst hv
      rw [k3, Except_bind_ok, show rsh (mul zero (ofWord (BitVec.ofInt 64 k))) 10 = zero from toNat_inj.1 (by
        rw [toNat_rsh, toNat_mul, show zero.toNat = 0 by rfl]; simp), hq, Except_bind_ok, k1, Except_bind_ok, hq, Except_bind_ok]
      exact TotalDemo.eq_panic (by decide +kernel)
  have havg : ∀ w, s0.averageTicks w = .error .panic := by
    intro w
    unfold Strat.averageTicks
    rw [k1, Except_bind_ok, hq, Except_bind_ok, hz]
    rfl
  unfold Strat.init Strat.openFirst
  rw [hk0]
  rcases hk with ⟨w, rfl⟩ | ⟨w, rfl⟩ | ⟨w, rfl⟩
  · dsimp only; rw [havg]; rfl
  · dsimp only; rw [hband]; rfl
  · dsimp only; rw [hband]; rfl

/-- C97: hence a run that starts at its first transaction panics with these strategies. -/
theorem C97_immediate {e : Execution} {kind : Kind} {n : Int} {x y : U256} {p : Pool} (h0 : Strat.new kind x y p = .ok e.strategy)
    (hk : (∃ w, kind = .aroundAverage w n) ∨ (∃ k, kind = .bollinger n k) ∨ (∃ k, kind = .bollingerFillUp n k)) (hn : 1 ≤ n) (hn2 : n ≤ 2 ^ 26)
    {t : Transaction} {ts : List Transaction} (ht : e.transactions = t :: ts) (h1 : e.startTime ≤ t.timestamp) (h2 : t.timestamp ≤ e.endTime)
    (fuel : Nat) : e.run fuel = .error .panic := by
  rw [Execution.run_perform, ht]
  unfold Execution.rowsOf
  rw [if_neg (by omega), List.flatMap_cons, Execution.performAll_append]
  have hrow : (Execution.rowOf e t e.initial).init = true := by
    unfold Execution.rowOf Execution.initial
    dsimp only
    rw [decide_eq_true h1]; rfl
  have hev : ∃ es, (Execution.rowOf e t e.initial).events = .init :: es := by
    unfold Row.events
    rw [hrow]
    exact ⟨_, rfl⟩
  obtain ⟨es, hev⟩ := hev
  have hp : Execution.performAll fuel (.init :: es) e.strategy = .error .panic := by
    rw [Execution.performAll_err]
    exact ⟨[], .init, es, [], e.strategy, rfl, .nil, by
      intro pre ev post s1 ws h; simp at h, Or.inl (C97_first h0 hk hn hn2 fuel)⟩
  rw [hev, hp]
  rfl

/-- C97: a run keeps its history to the end. -/
theorem C97_run {e e' : Execution} {kind : Kind} {n : Int} {x y : U256} {p : Pool} {fuel : Nat} (hc : Clock e)
    (h0 : Strat.new kind x y p = .ok e.strategy) (hm : memory kind = some n) (h : e.run fuel = .ok e') :
    ∃ rows xs s, Scheduled e rows ∧ Sees fuel (rows.flatMap Row.events) e.strategy xs s ∧ record n.toNat xs = .ok s.history ∧
      e'.strategy.history = s.history := by
  obtain ⟨rows, vs, s, c, v, h1, h2, _, h3, _⟩ := (C95_returns hc).1 h
  obtain ⟨xs, h4⟩ := trace_sees h2
  exact ⟨rows, xs, s, h1, h4, (history_record h0 hm h4).2.2, (burnAll_mind h3).2⟩

/-! ### Concrete runs -/

namespace HistoryDemo
open ExecDemo

/-- An interval around the average of two prices: a snapshot, a mint and a swap of others, a snapshot. -/
def s0 : Strat := getOk (Strat.new (.aroundAverage 600 2) (ofNat 1000000) (ofNat 2000000) Demo.p0) (by decide +kernel)
def s1 : Strat := getOk s0.makeSnapshot (by decide +kernel)
def p2 : Pool := getOk ((tx "Mint" 100 0).apply 10 s1.pool) (by decide +kernel)
def s2 : Strat := { s1 with pool := p2 }
def p3 : Pool := getOk ((tx "Swap" 200 100000).apply 10 s2.pool) (by decide +kernel)
def s3 : Strat := { s2 with pool := p3 }
def s4 : Strat := getOk s3.makeSnapshot (by decide +kernel)
def es : List Event := [.price, .apply (tx "Mint" 100 0), .apply (tx "Swap" 200 100000), .price]

theorem applies {fuel : Nat} {t : Transaction} {p p' : Pool} (h : t.apply fuel p = .ok p') : Applies fuel t p p' := by
  rw [Execution.apply_iff] at h
  unfold Applies
  cases ho : opOf t p with
  | none => rw [ho] at h; exact (Except.ok.inj h).symm
  | some op => rw [ho] at h; exact h

theorem sees : Sees 10 es s0 [s0.pool.price, s3.pool.price] s4 :=
  .price ⟨eq_getOk _ _, rfl⟩ (.other (fun h => Event.noConfusion h) (vs := []) ⟨p2, applies (eq_getOk _ _), rfl, rfl⟩
    (.other (fun h => Event.noConfusion h) (vs := []) ⟨p3, applies (eq_getOk _ _), rfl, rfl⟩ (.price ⟨eq_getOk _ _, rfl⟩ .nil)))

/-- What the interval opens after both snapshots, and after the first one. -/
def i4 : Strat := (getOk (s4.init 10) (by decide +kernel)).2
def i1 : Strat := (getOk (s1.init 10) (by decide +kernel)).2

/-- Bollinger bands after two snapshots of the same price. -/
def b0 : Strat := getOk (Strat.new (.bollinger 2 1024) (ofNat 1000000) (ofNat 2000000) Demo.p0) (by decide +kernel)
def b1 : Strat := getOk b0.makeSnapshot (by decide +kernel)
def b2 : Strat := getOk b1.makeSnapshot (by decide +kernel)

theorem flat : Sees 10 [.price, .price] b0 [b0.pool.price, b1.pool.price] b2 :=
  .price ⟨eq_getOk _ _, rfl⟩ (.price ⟨eq_getOk _ _, rfl⟩ .nil)

/-- A run that starts at its first transaction. -/
def early : Execution := ⟨s0, 100, 500, 100, 60, 1000, [], txs⟩

end HistoryDemo

open HistoryDemo ExecDemo in
/-- C97: the prices seen are 2^96 (tick 0) and the one after the swap (tick 39); the interval is centred in between. -/
example : Strat.new (.aroundAverage 600 2) (ofNat 1000000) (ofNat 2000000) Demo.p0 = .ok s0 ∧
    Sees 10 es s0 [s0.pool.price, s3.pool.price] s4 ∧ s0.pool.price.toNat = 2 ^ 96 ∧ s3.pool.tick = 39 ∧
    (∀ x ∈ latest 2 [s0.pool.price, s3.pool.price], x.toNat < 2 ^ 128 ∧ tickPrice 0 ≤ x.toNat ∧ x.toNat < tickPrice (39 + 1)) ∧
    i4.positions.map (fun q => (q.lower, q.upper)) = [(-600, 600)] :=
  ⟨eq_getOk _ _, sees, by decide +kernel, by decide +kernel, by decide +kernel, by decide +kernel⟩

open HistoryDemo ExecDemo in
/-- C97: after the first of the two snapshots, at tick 0, the interval is opened about 6960 ticks below the market. -/
example : Sees 10 [.price] s0 [s0.pool.price] s1 ∧ s1.pool.tick = 0 ∧
    i1.positions.map (fun q => (q.lower, q.upper)) = [(-7560, -6360)] :=
  ⟨.price ⟨eq_getOk _ _, rfl⟩ .nil, by decide +kernel, by decide +kernel⟩

open HistoryDemo ExecDemo in
/-- C97: after two snapshots of the same price the band of the Bollinger strategy is empty, and it panics. -/
example : Strat.new (.bollinger 2 1024) (ofNat 1000000) (ofNat 2000000) Demo.p0 = .ok b0 ∧
    Sees 10 [.price, .price] b0 [b0.pool.price, b1.pool.price] b2 ∧ b0.pool.price = b1.pool.price ∧ AverageBand b2 1024 (0, 0) ∧
    b2.init 10 = .error .panic :=
  ⟨eq_getOk _ _, flat, by decide +kernel, Strat.bollingerTicks_ok (by norm_num) (by
    rw [eq_getOk (b2.bollingerTicks 1024) (by decide +kernel)]
    exact congrArg _ (by decide +kernel)), TotalDemo.eq_panic (by decide +kernel)⟩

open HistoryDemo ExecDemo in
/-- C97: a run that starts at its first transaction. -/
example (fuel : Nat) : early.run fuel = .error .panic :=
  C97_immediate (n := 2) (show Strat.new (.aroundAverage 600 2) (ofNat 1000000) (ofNat 2000000) Demo.p0 = .ok s0 from eq_getOk _ _) (Or.inl ⟨600, rfl⟩) (by norm_num) (by norm_num) rfl (by decide) (by decide) fuel

end Props
end Uni
