import Verif.Proofs.DivWords
/-! Multi-word division: `Udivrem`, `Div`, `Mod`. -/
namespace Uni
namespace U256

theorem Except_bind_ok {α β : Type} (a : α) (f : α → Go β) : (Except.ok a >>= f) = f a := rfl
theorem Except_bind_err {α β : Type} (e : Err) (f : α → Go β) : ((Except.error e : Go α) >>= f) = .error e := rfl

/-- One digit of Knuth's algorithm. -/
theorem knuthStep_spec {d : List Word} {dh dl v : Word} {dlo a hi : List Word}
    (hdl : d = dlo ++ [dl, dh]) (hd : 2 ^ 63 ≤ dh.toNat)
    (hv1 : (v.toNat + 2 ^ 64) * dh.toNat + 1 ≤ 2 ^ 128) (hv2 : 2 ^ 128 ≤ (v.toNat + 2 ^ 64 + 1) * dh.toNat)
    (ha : a.length = d.length + 1) (hU : val a < val d * 2 ^ 64) :
    ∃ q a', knuthStep (a ++ hi) d dh dl v = .ok (q, a' ++ hi) ∧ a'.length = d.length + 1 ∧
      val a = q.toNat * val d + val a' ∧ val a' < val d := by
  -- split the window
  obtain ⟨b, u2, hb⟩ := list_split_last a (by intro h; rw [h] at ha; simp at ha)
  obtain ⟨c, u1, hc⟩ := list_split_last b (by intro h; rw [h] at hb; rw [hb] at ha; rw [hdl] at ha; simp at ha)
  obtain ⟨lo, u0, hl⟩ := list_split_last c (by
    intro h; rw [h] at hc; rw [hc] at hb; rw [hb] at ha; rw [hdl] at ha; simp at ha)
  have hlen : lo.length = dlo.length := by
    rw [hb, hc, hl, hdl] at ha; simp at ha; omega
  have hn : d.length = dlo.length + 2 := by rw [hdl]; simp
  have hblen : b.length = d.length := by rw [hc, hl, hn, ← hlen]; simp
  -- values
  have va : val a = val lo + 2 ^ (64 * dlo.length) * (u0.toNat + 2 ^ 64 * (u1.toNat + 2 ^ 64 * u2.toNat)) := by
    rw [hb, hc, hl]
    rw [List.append_assoc, List.append_assoc, val_append, hlen]
    simp only [List.cons_append, List.nil_append, val_cons, val_nil]
    ring
  have vd : val d = val dlo + 2 ^ (64 * dlo.length) * (dl.toNat + 2 ^ 64 * dh.toNat) := by
    rw [hdl, val_append]
    simp only [val_cons, val_nil]
    ring
  have hq := qhat_spec (u2 := u2) (u1 := u1) (u0 := u0) (dh := dh) (dl := dl) (v := v)
    (P := 2 ^ (64 * dlo.length)) (lo := val lo) (dlo := val dlo)
    (by have := val_lt lo; rwa [hlen] at this) (val_lt dlo) hd hv1 hv2 (by rw [← va, ← vd]; exact hU)
  rw [← va, ← vd] at hq
  -- reading the words
  have hw : a ++ hi = b ++ (u2 :: hi) := by rw [hb]; simp
  have i2 : idx (a ++ hi) (d.length : Nat) = .ok u2 := by
    rw [idx_nat _ _ (by rw [List.length_append, ha]; omega)]
    congr 1
    simp only [hw, ← hblen]
    simp
  have hw1 : a ++ hi = c ++ (u1 :: u2 :: hi) := by rw [hb, hc]; simp
  have hw0 : a ++ hi = lo ++ (u0 :: u1 :: u2 :: hi) := by rw [hb, hc, hl]; simp
  have hclen : c.length = d.length - 1 := by rw [hl, hn]; simp; omega
  have i1 : idx (a ++ hi) ((d.length : Int) - 1) = .ok u1 := by
    rw [show (d.length : Int) - 1 = ((d.length - 1 : Nat) : Int) by omega]
    rw [idx_nat _ _ (by rw [List.length_append, ha]; omega)]
    congr 1
    simp only [hw1, ← hclen]
    simp
  have hlolen : lo.length = d.length - 2 := by omega
  have i0 : idx (a ++ hi) ((d.length : Int) - 2) = .ok u0 := by
    rw [show (d.length : Int) - 2 = ((d.length - 2 : Nat) : Int) by omega]
    rw [idx_nat _ _ (by rw [List.length_append, ha]; omega)]
    congr 1
    simp only [hw0, ← hlolen]
    simp
  unfold knuthStep
  dsimp only
  rw [i2, i1, i0]
  simp only [Except_bind_ok]
  generalize qhatEstimate u2 u1 u0 dh dl v = qhat at *
  obtain ⟨hq1, hq2⟩ := hq
  obtain ⟨xs, bo, hs, hslen, hsv⟩ := subMulTo_spec b d (u2 :: hi) qhat 0 hblen
  rw [hw, hs]
  simp only [word_toNat_zero, Nat.add_zero] at hsv
  have hxlen : xs.length = d.length := by omega
  have hset : ∀ (ys : List Word) (t w : Word) , ys.length = d.length →
      setIdx (ys ++ (t :: hi)) (d.length : Nat) w = .ok (ys ++ (w :: hi)) := by
    intro ys t w hy
    rw [setIdx_nat _ _ _ (by simp [hy])]
    congr 1
    rw [← hy]
    simp
  simp only [hset xs u2 (u2 - bo) hxlen, Except_bind_ok]
  have vab : val a = val b + 2 ^ (64 * d.length) * u2.toNat := by
    rw [hb, val_append, hblen]; simp
  have hxv := val_lt xs
  rw [hxlen] at hxv
  have hdv := val_lt d
  rw [hblen] at hsv
  have hbol := bo.isLt
  have hu2l := u2.isLt
  have hcomm : val d * qhat.toNat = qhat.toNat * val d := Nat.mul_comm _ _
  generalize hW : (2 : Nat) ^ (64 * d.length) = W at *
  by_cases hlt : u2 < bo
  · rw [if_pos hlt]
    rw [word_lt_iff] at hlt
    obtain ⟨ys, c', hy, hylen, hc', hyv⟩ := addTo_spec xs d ((u2 - bo) :: hi) 0 hxlen (by simp)
    rw [hy]
    have hylen' : ys.length = d.length := by omega
    have itop : idx (ys ++ ((u2 - bo) :: hi)) (d.length : Nat) = .ok (u2 - bo) := by
      rw [idx_nat _ _ (by simp [hylen'])]
      congr 1
      simp only [← hylen']
      simp
    simp only [itop, Except_bind_ok, hset ys (u2 - bo) _ hylen']
    rw [hxlen, hW] at hyv
    simp only [word_toNat_zero, Nat.add_zero] at hyv
    have hyl := val_lt ys
    rw [hylen', hW] at hyl
    -- the difference is exactly one
    have hW0 : 0 < W := by rw [← hW]; positivity
    have hb1 : bo.toNat = u2.toNat + c'.toNat := by
      have e1 : W * bo.toNat = W * u2.toNat + W * (bo.toNat - u2.toNat) := by
        rw [← Nat.mul_add]; congr 1; omega
      -- val ys + W*c' = val a + W*(bo - u2) ... - qhat*D + D
      have e2 : val ys + W * c'.toNat + qhat.toNat * val d = val a + W * (bo.toNat - u2.toNat) + val d := by
        omega
      have e3 : W * (bo.toNat - u2.toNat) < W * (c'.toNat + 1) := by
        rw [Nat.mul_add W c'.toNat 1, Nat.mul_one]
        omega
      have e4 := Nat.lt_of_mul_lt_mul_left e3
      omega
    have hc1 : c'.toNat = 1 := by omega
    have hz : (u2 - bo + c').toNat = 0 := by
      rw [BitVec.toNat_add, BitVec.toNat_sub]; omega
    have hqpos : 1 ≤ qhat.toNat := by
      rcases Nat.eq_zero_or_pos qhat.toNat with h | h
      · rw [h] at hcomm hsv
        rw [hb1, Nat.mul_add] at hsv
        rw [hc1] at hsv
        omega
      · exact h
    have hqm : (qhat - 1).toNat = qhat.toNat - 1 := by
      have := qhat.isLt
      rw [BitVec.toNat_sub, word_toNat_one]; omega
    have hmulq : (qhat.toNat - 1) * val d + val d = qhat.toNat * val d := by
      have : qhat.toNat = (qhat.toNat - 1) + 1 := by omega
      conv_rhs => rw [this, Nat.add_mul, Nat.one_mul]
    have hva' : val (ys ++ [u2 - bo + c']) = val ys := by
      rw [val_append]; simp only [val_cons, val_nil, hz]; omega
    have e5 : W * bo.toNat = W * u2.toNat + W := by rw [hb1, hc1, Nat.mul_add, Nat.mul_one]
    rw [hc1, Nat.mul_one] at hyv
    refine ⟨qhat - 1, ys ++ [u2 - bo + c'], ?_, by simp [hylen'], ?_, ?_⟩
    · show Except.ok _ = _
      simp
    · rw [hva', hqm]; omega
    · rw [hva']
      rw [Nat.add_mul, Nat.one_mul] at hq1
      omega
  · rw [if_neg hlt]
    rw [word_lt_iff] at hlt
    have hz : (u2 - bo).toNat = u2.toNat - bo.toNat := by rw [BitVec.toNat_sub]; omega
    have e1 : W * u2.toNat = W * bo.toNat + W * (u2.toNat - bo.toNat) := by
      rw [← Nat.mul_add]; congr 1; omega
    have hva' : val (xs ++ [u2 - bo]) = val xs + W * (u2.toNat - bo.toNat) := by
      rw [val_append, hxlen, hW]; simp only [val_cons, val_nil, hz, Nat.mul_zero, Nat.add_zero]
    refine ⟨qhat, xs ++ [u2 - bo], ?_, by simp [hxlen], ?_, ?_⟩
    · show Except.ok _ = _
      simp
    · rw [hva']; omega
    · rw [hva']
      rw [Nat.add_mul, Nat.one_mul] at hq1
      omega

theorem take_set_lt {α : Type} (xs : List α) (i j : Nat) (a : α) (h : i ≤ j) : (xs.set j a).take i = xs.take i := by
  rw [List.take_set_of_le h]

theorem knuthLoop_spec {d : List Word} {dh dl v : Word} {dlo : List Word}
    (hdl : d = dlo ++ [dl, dh]) (hd : 2 ^ 63 ≤ dh.toNat)
    (hv1 : (v.toNat + 2 ^ 64) * dh.toNat + 1 ≤ 2 ^ 128) (hv2 : 2 ^ 128 ≤ (v.toNat + 2 ^ 64 + 1) * dh.toNat)
    (J : Nat) : ∀ (quot lo top hi : List Word), lo.length = J → top.length = d.length → val top < val d →
      J ≤ quot.length →
      ∃ quot' t hi', knuthLoop d dh dl v J quot (lo ++ top ++ hi) = .ok (quot', t ++ hi') ∧
        quot'.length = quot.length ∧ quot'.drop J = quot.drop J ∧ t.length = d.length ∧
        val (lo ++ top) = val (quot'.take J) * val d + val t ∧ val t < val d := by
  induction J with
  | zero =>
    intro quot lo top hi hlo htop hlt _
    have : lo = [] := List.length_eq_zero_iff.1 hlo
    subst this
    exact ⟨quot, top, hi, by simp [knuthLoop], rfl, by simp, htop, by simp, hlt⟩
  | succ J ih =>
    intro quot lo top hi hlo htop hlt hq
    obtain ⟨lo', w, hw⟩ := list_split_last lo (by intro h; rw [h] at hlo; simp at hlo)
    have hlo' : lo'.length = J := by rw [hw] at hlo; simpa using hlo
    have hvw : val (w :: top) < val d * 2 ^ 64 := by
      rw [val_cons]
      have := w.isLt
      have h2 : 2 ^ 64 * (val top + 1) ≤ 2 ^ 64 * val d := Nat.mul_le_mul_left _ hlt
      rw [Nat.mul_add, Nat.mul_one, Nat.mul_comm _ (val d)] at h2
      omega
    obtain ⟨q, a', hstep, halen, hav, halt⟩ := knuthStep_spec (hi := hi) hdl hd hv1 hv2
      (a := w :: top) (by simp [htop]) hvw
    have hdrop : (lo ++ top ++ hi).drop J = (w :: top) ++ hi := by
      rw [hw, ← hlo']; simp
    have htake : (lo ++ top ++ hi).take J = lo' := by
      rw [hw, ← hlo']; simp
    unfold knuthLoop
    rw [hdrop, hstep]
    simp only [Except_bind_ok]
    rw [setIdx_nat _ _ _ (by omega), htake]
    simp only [Except_bind_ok]
    obtain ⟨t0, z, hz⟩ := list_split_last a' (by intro h; rw [h] at halen; simp at halen)
    have ht0 : t0.length = d.length := by rw [hz] at halen; simpa using halen
    have hva : val a' = val t0 + 2 ^ (64 * d.length) * z.toNat := by rw [hz, val_append, ht0]; simp
    have hdv := val_lt d
    have hz0 : z.toNat = 0 := by
      rcases Nat.eq_zero_or_pos z.toNat with h | h
      · exact h
      · have : 2 ^ (64 * d.length) * 1 ≤ 2 ^ (64 * d.length) * z.toNat := Nat.mul_le_mul_left _ h
        omega
    rw [hz0, Nat.mul_zero, Nat.add_zero] at hva
    obtain ⟨quot', t, hi', hrun, hqlen, hqdrop, htlen, hval, htlt⟩ :=
      ih (quot.set J q) lo' t0 ([z] ++ hi) hlo' ht0 (by omega) (by simp; omega)
    have hassoc : lo' ++ (a' ++ hi) = lo' ++ t0 ++ ([z] ++ hi) := by rw [hz]; simp
    rw [hassoc, hrun]
    refine ⟨quot', t, hi', rfl, by simpa using hqlen, ?_, htlen, ?_, htlt⟩
    · have := congrArg (List.drop 1) hqdrop
      rw [List.drop_drop, List.drop_drop] at this
      rw [this, List.drop_set_of_lt (by omega)]
    · -- quot'[J] = q
      have hJ : J < quot'.length := by rw [hqlen]; simp; omega
      have hget : quot'[J] = q := by
        have h1 := congrArg (fun l => l[0]?) hqdrop
        simp only [List.getElem?_drop, Nat.add_zero] at h1
        rw [List.getElem?_eq_getElem hJ, List.getElem?_eq_getElem (by simp; omega)] at h1
        simpa using h1
      have htk : quot'.take (J + 1) = quot'.take J ++ [q] := by
        rw [List.take_add_one, List.getElem?_eq_getElem hJ, hget]; rfl
      have hT : val (quot'.take J ++ [q]) = val (quot'.take J) + 2 ^ (64 * J) * q.toNat := by
        rw [val_append, List.length_take, Nat.min_eq_left (by omega)]; simp
      rw [htk, hT]
      have hL : val (lo ++ top) = val lo' + 2 ^ (64 * J) * val (w :: top) := by
        rw [hw, List.append_assoc, val_append, hlo']; rfl
      rw [hL, hav, hva]
      rw [val_append, hlo'] at hval
      zify at hval ⊢
      linear_combination hval

theorem udivremBy1Loop_spec {d v : Word} (hd : 2 ^ 63 ≤ d.toNat)
    (hv1 : (v.toNat + 2 ^ 64) * d.toNat + 1 ≤ 2 ^ 128) (hv2 : 2 ^ 128 ≤ (v.toNat + 2 ^ 64 + 1) * d.toNat)
    (u : List Word) (J : Nat) : ∀ (quot : List Word) (rem : Word), J ≤ u.length → J ≤ quot.length →
      rem.toNat < d.toNat →
      ∃ quot' rem', udivremBy1Loop u d v J quot rem = .ok (quot', rem') ∧
        quot'.length = quot.length ∧ quot'.drop J = quot.drop J ∧
        val (u.take J) + 2 ^ (64 * J) * rem.toNat = val (quot'.take J) * d.toNat + rem'.toNat ∧
        rem'.toNat < d.toNat := by
  induction J with
  | zero =>
    intro quot rem _ _ hr
    exact ⟨quot, rem, rfl, rfl, by simp, by simp, hr⟩
  | succ J ih =>
    intro quot rem hu hq hr
    have hs := udivrem2by1_spec (uh := rem) (ul := u[J]) hd hr hv1 hv2
    unfold udivremBy1Loop
    rw [idx_nat _ _ (by omega)]
    simp only [Except_bind_ok]
    rw [setIdx_nat _ _ _ (by omega)]
    simp only [Except_bind_ok]
    generalize udivrem2by1 rem u[J] d v = qr at *
    obtain ⟨quot', rem', hrun, hqlen, hqdrop, hval, hlt⟩ :=
      ih (quot.set J qr.1) qr.2 (by omega) (by simp; omega) hs.2
    rw [hrun]
    refine ⟨quot', rem', rfl, by simpa using hqlen, ?_, ?_, hlt⟩
    · have := congrArg (List.drop 1) hqdrop
      rw [List.drop_drop, List.drop_drop] at this
      rw [this, List.drop_set_of_lt (by omega)]
    · have hJ : J < quot'.length := by rw [hqlen]; simp; omega
      have hget : quot'[J] = qr.1 := by
        have h1 := congrArg (fun l => l[0]?) hqdrop
        simp only [List.getElem?_drop, Nat.add_zero] at h1
        rw [List.getElem?_eq_getElem hJ, List.getElem?_eq_getElem (by simp; omega)] at h1
        simpa using h1
      have htk : quot'.take (J + 1) = quot'.take J ++ [qr.1] := by
        rw [List.take_add_one, List.getElem?_eq_getElem hJ, hget]; rfl
      have htu : u.take (J + 1) = u.take J ++ [u[J]] := by
        rw [List.take_add_one, List.getElem?_eq_getElem (by omega)]; rfl
      rw [htk, htu, val_append, val_append, List.length_take, List.length_take, Nat.min_eq_left (by omega),
        Nat.min_eq_left (by omega)]
      rw [show 64 * (J + 1) = 64 * J + 64 by ring, pow_add]
      simp only [val_cons, val_nil]
      have hs1 := hs.1
      zify at hval hs1 ⊢
      linear_combination hval + (2 : Int) ^ (64 * J) * hs1

/-- First write out of range panics. -/
theorem udivremBy1Loop_panic (u : List Word) (d v : Word) (J : Nat) (quot : List Word) (rem : Word)
    (hu : J + 1 ≤ u.length) (hq : quot.length ≤ J) :
    udivremBy1Loop u d v (J + 1) quot rem = .error .panic := by
  unfold udivremBy1Loop
  rw [idx_nat _ _ (by omega)]
  simp only [Except_bind_ok]
  rw [setIdx_nat_panic _ _ _ (by omega)]
  rfl

/-! ### Normalisation shifts -/

theorem length_shlWords (s : Nat) (p : Word) (ws : List Word) : (shlWords s p ws).length = ws.length := by
  induction ws generalizing p with
  | nil => rfl
  | cons w ws ih => simp [shlWords, ih]

theorem val_shlWords (s : Nat) (hs : s < 64) (ws : List Word) : ∀ p : Word,
    val (shlWords s p ws) + 2 ^ (64 * ws.length) * ((ws.getLastD p).toNat / 2 ^ (64 - s)) =
      val ws * 2 ^ s + p.toNat / 2 ^ (64 - s) := by
  induction ws with
  | nil => intro p; simp [shlWords]
  | cons w ws ih =>
    intro p
    have h := ih w
    have h64 : (2 : Nat) ^ 64 = 2 ^ s * 2 ^ (64 - s) := by rw [← pow_add]; congr 1; omega
    have hw : w.toNat * 2 ^ s % 2 ^ 64 + 2 ^ 64 * (w.toNat / 2 ^ (64 - s)) = w.toNat * 2 ^ s := by
      have e : w.toNat / 2 ^ (64 - s) = w.toNat * 2 ^ s / 2 ^ 64 := by
        rw [h64, Nat.mul_comm (w.toNat), Nat.mul_div_mul_left _ _ (by positivity)]
      rw [e]; exact Nat.mod_add_div _ _
    rw [List.getLastD_cons]
    simp only [shlWords, val_cons, List.length_cons, shl_or_shr w p s hs]
    rw [show 64 * (ws.length + 1) = 64 + 64 * ws.length by ring, pow_add]
    zify at h hw ⊢
    linear_combination (2 : Int) ^ 64 * h + hw

theorem sigLen_le (u : List Word) : sigLen u ≤ u.length := by
  induction u with
  | nil => simp [sigLen]
  | cons w ws ih =>
    simp only [sigLen, List.length_cons]
    split
    · split <;> omega
    · omega

theorem val_take_sigLen (u : List Word) : val (u.take (sigLen u)) = val u := by
  induction u with
  | nil => simp [sigLen]
  | cons w ws ih =>
    by_cases h : sigLen ws = 0
    · simp only [sigLen, h, if_true]
      rw [h] at ih
      simp only [List.take_zero, val_nil] at ih
      by_cases hw : w = 0
      · simp [hw, ← ih]
      · rw [if_neg hw]; simp [← ih]
    · simp only [sigLen, if_neg h, List.take_succ_cons, val_cons, ih]

theorem sigLen_top (u : List Word) (h : sigLen u ≠ 0) : ∃ lo w, u.take (sigLen u) = lo ++ [w] ∧ w.toNat ≠ 0 ∧
    lo.length + 1 = sigLen u := by
  induction u with
  | nil => simp [sigLen] at h
  | cons w ws ih =>
    by_cases h0 : sigLen ws = 0
    · by_cases hw : w = 0
      · exfalso; apply h; simp [sigLen, h0, hw]
      · refine ⟨[], w, ?_, fun e => hw (word_ext (by simpa using e)), ?_⟩
        · simp only [sigLen, h0, if_true]; rw [if_neg hw]; simp
        · simp only [sigLen, h0, if_true]; rw [if_neg hw]; rfl
    · obtain ⟨lo, w', e, hw', hl⟩ := ih h0
      refine ⟨w :: lo, w', ?_, hw', ?_⟩
      · simp only [sigLen, if_neg h0, List.take_succ_cons, e, List.cons_append]
      · simp only [sigLen, if_neg h0, List.length_cons, hl]

theorem sigLen_eq_zero (u : List Word) : sigLen u = 0 ↔ val u = 0 := by
  constructor
  · intro h
    rw [← val_take_sigLen, h]; rfl
  · intro h
    by_contra h0
    obtain ⟨lo, w, e, hw, _⟩ := sigLen_top u h0
    have h1 := val_take_sigLen u
    rw [e, val_append, h] at h1
    simp only [val_cons, val_nil, Nat.mul_zero, Nat.add_zero] at h1
    have : 2 ^ (64 * lo.length) * w.toNat = 0 := by omega
    rcases Nat.mul_eq_zero.1 this with h2 | h2
    · exact absurd h2 (by positivity)
    · exact hw h2

/-- `sigLen` is the number of base-2^64 digits. -/
theorem sigLen_bounds (u : List Word) (h : sigLen u ≠ 0) :
    2 ^ (64 * (sigLen u - 1)) ≤ val u ∧ val u < 2 ^ (64 * sigLen u) := by
  obtain ⟨lo, w, e, hw, hl⟩ := sigLen_top u h
  have h1 := val_take_sigLen u
  constructor
  · rw [← h1, e, val_append, ← hl, Nat.add_sub_cancel]
    have : 2 ^ (64 * lo.length) * 1 ≤ 2 ^ (64 * lo.length) * val [w] :=
      Nat.mul_le_mul_left _ (by simp only [val_cons, val_nil]; omega)
    omega
  · rw [← h1]
    have := val_lt (u.take (sigLen u))
    rwa [List.length_take, Nat.min_eq_left (sigLen_le u)] at this

theorem leadingZeros64_spec (w : Word) (hw : w.toNat ≠ 0) : leadingZeros64 w < 64 ∧
    2 ^ 63 ≤ w.toNat * 2 ^ leadingZeros64 w ∧ w.toNat * 2 ^ leadingZeros64 w < 2 ^ 64 := by
  obtain ⟨h1, h2, h3, h4⟩ := len64_spec w
  have h2 := h2 hw
  have h3 := h3 hw
  unfold leadingZeros64
  refine ⟨by omega, ?_, ?_⟩
  · calc 2 ^ 63 = 2 ^ (len64 w - 1) * 2 ^ (64 - len64 w) := by rw [← pow_add]; congr 1; omega
      _ ≤ _ := Nat.mul_le_mul_right _ h2
  · calc _ < 2 ^ len64 w * 2 ^ (64 - len64 w) := Nat.mul_lt_mul_of_pos_right h1 (by positivity)
      _ = 2 ^ 64 := by rw [← pow_add]; congr 1; omega

/-- Reading the remainder back. -/
theorem remWords_spec (s : Nat) (hs : s < 64) (n : Nat) (t hi : List Word) (ht : t.length = n) (k : Nat) :
    k ≤ n → 0 < k → ∃ rs, remWords (t ++ hi) s n k = .ok rs ∧ rs.length = k ∧
      val rs = val (t.drop (n - k)) / 2 ^ s := by
  induction k with
  | zero => intro _ h; omega
  | succ k ih =>
    intro hk _
    have hi1 : n - (k + 1) < t.length := by omega
    have hget : (t ++ hi)[n - (k + 1)]'(by simp; omega) = t[n - (k + 1)] := by
      rw [List.getElem_append_left hi1]
    have hdrop : t.drop (n - (k + 1)) = t[n - (k + 1)] :: t.drop (n - k) := by
      rw [List.drop_eq_getElem_cons hi1]
      congr 2; omega
    unfold remWords
    dsimp only
    rw [idx_nat _ _ (by simp; omega), hget]
    simp only [Except_bind_ok]
    by_cases h0 : k = 0
    · subst h0
      rw [if_pos rfl]
      refine ⟨_, rfl, rfl, ?_⟩
      rw [hdrop]
      have : t.drop (n - 0) = [] := by simp [ht]
      rw [this]
      simp only [val_cons, val_nil, BitVec.toNat_ushiftRight, Nat.shiftRight_eq_div_pow]
      simp
    · rw [if_neg h0]
      have hi2 : n - k < t.length := by omega
      have hget2 : (t ++ hi)[n - k]'(by simp; omega) = t[n - k] := by
        rw [List.getElem_append_left hi2]
      rw [show ((n - (k + 1) : Nat) : Int) + 1 = ((n - k : Nat) : Int) by omega]
      rw [idx_nat _ _ (by simp; omega), hget2]
      simp only [Except_bind_ok]
      obtain ⟨rs, hr, hlen, hv⟩ := ih (by omega) (by omega)
      rw [hr]
      refine ⟨_, rfl, by simp [hlen], ?_⟩
      have hdrop2 : t.drop (n - k) = t[n - k] :: t.drop (n - k + 1) := List.drop_eq_getElem_cons hi2
      rw [hdrop]
      simp only [val_cons, shr_or_shl _ _ s hs, hv]
      rw [hdrop2]
      simp only [val_cons]
      generalize t[n - (k + 1)].toNat = a
      generalize t[n - k].toNat = b
      generalize val (t.drop (n - k + 1)) = c
      have h64 : (2 : Nat) ^ 64 = 2 ^ s * 2 ^ (64 - s) := by rw [← pow_add]; congr 1; omega
      -- b*2^(64-s) mod 2^64 + 2^64 * ((b + 2^64 c)/2^s) = (b + 2^64 c) * 2^(64-s)
      have e1 : (b + 2 ^ 64 * c) * 2 ^ (64 - s) % 2 ^ 64 = b * 2 ^ (64 - s) % 2 ^ 64 := by
        rw [Nat.add_mul, Nat.mul_assoc, Nat.add_mul_mod_self_left]
      have e2 : (b + 2 ^ 64 * c) / 2 ^ s = (b + 2 ^ 64 * c) * 2 ^ (64 - s) / 2 ^ 64 := by
        generalize b + 2 ^ 64 * c = x
        rw [h64, Nat.mul_comm x, Nat.mul_comm (2 ^ s), Nat.mul_div_mul_left _ _ (by positivity)]
      have e3 := Nat.mod_add_div ((b + 2 ^ 64 * c) * 2 ^ (64 - s)) (2 ^ 64)
      rw [e1, ← e2] at e3
      rw [show a + 2 ^ 64 * (b + 2 ^ 64 * c) = a + 2 ^ s * ((b + 2 ^ 64 * c) * 2 ^ (64 - s)) by rw [h64]; ring]
      rw [Nat.add_mul_div_left _ _ (by positivity), ← e3]
      ring

theorem toNat_ofWords (ws : List Word) (h : ws.length ≤ 4) : (ofWords ws).toNat = val ws := by
  unfold ofWords toNat
  rcases ws with _ | ⟨a, _ | ⟨b, _ | ⟨c, _ | ⟨e, _ | ⟨f, ws⟩⟩⟩⟩⟩
  · rfl
  · simp
  · simp
  · simp; ring
  · simp; ring
  · simp at h

/-- Decomposition of the normalised divisor. -/
theorem dn_spec (dl : List Word) (h : sigLen dl ≠ 0) : ∃ lo w s, dl.take (sigLen dl) = lo ++ [w] ∧
    lo.length + 1 = sigLen dl ∧ s = leadingZeros64 w ∧ idx dl ((sigLen dl : Int) - 1) = .ok w ∧ s < 64 ∧
    val (shlWords s 0 (dl.take (sigLen dl))) = val dl * 2 ^ s ∧
    ∃ lo' w', shlWords s 0 (dl.take (sigLen dl)) = lo' ++ [w'] ∧ lo'.length = lo.length ∧ 2 ^ 63 ≤ w'.toNat := by
  obtain ⟨lo, w, e, hw, hl⟩ := sigLen_top dl h
  obtain ⟨hs, hs1, hs2⟩ := leadingZeros64_spec w hw
  have hv := val_shlWords (leadingZeros64 w) hs (dl.take (sigLen dl)) 0
  have hlast : (dl.take (sigLen dl)).getLastD 0 = w := by rw [e]; simp
  have h64 : (2 : Nat) ^ 64 = 2 ^ leadingZeros64 w * 2 ^ (64 - leadingZeros64 w) := by
    rw [← pow_add]; congr 1; omega
  have hz : w.toNat / 2 ^ (64 - leadingZeros64 w) = 0 := by
    apply Nat.div_eq_of_lt
    rw [h64, Nat.mul_comm] at hs2
    exact Nat.lt_of_mul_lt_mul_left hs2
  rw [hlast, hz, Nat.mul_zero, Nat.add_zero, word_toNat_zero, Nat.zero_div, Nat.add_zero,
    val_take_sigLen] at hv
  refine ⟨lo, w, leadingZeros64 w, e, hl, rfl, ?_, hs, hv, ?_⟩
  · have hlt := sigLen_le dl
    rw [show (sigLen dl : Int) - 1 = ((sigLen dl - 1 : Nat) : Int) by omega, idx_nat _ _ (by omega)]
    congr 1
    have h1 : (dl.take (sigLen dl))[sigLen dl - 1]? = some w := by
      rw [e, ← hl]; simp
    rw [List.getElem?_take_of_lt (by omega), List.getElem?_eq_getElem (by omega)] at h1
    exact Option.some.inj h1
  · have hlen : (shlWords (leadingZeros64 w) 0 (dl.take (sigLen dl))).length = lo.length + 1 := by
      rw [length_shlWords, e]; simp
    obtain ⟨lo', w', e'⟩ := list_split_last (shlWords (leadingZeros64 w) 0 (dl.take (sigLen dl)))
      (by intro h0; rw [h0] at hlen; simp at hlen)
    have hl' : lo'.length = lo.length := by rw [e'] at hlen; simpa using hlen
    refine ⟨lo', w', e', hl', ?_⟩
    rw [e', val_append, hl'] at hv
    simp only [val_cons, val_nil, Nat.mul_zero, Nat.add_zero] at hv
    have hval : val dl = val lo + 2 ^ (64 * lo.length) * w.toNat := by
      rw [← val_take_sigLen, e, val_append]; simp
    have hlo := val_lt lo'
    rw [hl'] at hlo
    by_contra hc
    have hc : w'.toNat + 1 ≤ 2 ^ 63 := by omega
    have h1 := Nat.mul_le_mul_left (2 ^ (64 * lo.length)) hc
    have h2 := Nat.mul_le_mul_left (2 ^ (64 * lo.length)) hs1
    rw [hval, Nat.add_mul, Nat.mul_assoc] at hv
    rw [Nat.mul_add, Nat.mul_one] at h1
    generalize 2 ^ (64 * lo.length) * w'.toNat = A at *
    generalize 2 ^ (64 * lo.length) * (w.toNat * 2 ^ leadingZeros64 w) = B at *
    generalize 2 ^ (64 * lo.length) = C at *
    generalize val lo * 2 ^ leadingZeros64 w = D at *
    omega

theorem limbs_take_le (d : U256) : sigLen d.limbs ≤ 4 := sigLen_le d.limbs

/-- `Udivrem` computes quotient and remainder whenever it does not run out of room. -/
theorem udivrem_spec (quot u : List Word) (d : U256) (hd : d.toNat ≠ 0) (hu : val u ≠ 0)
    (h1 : sigLen d.limbs ≤ sigLen u + 1) (h2 : sigLen u + 1 - sigLen d.limbs ≤ quot.length) :
    ∃ quot' rem, udivrem quot u d = .ok (quot', rem) ∧ quot'.length = quot.length ∧
      quot'.drop (sigLen u + 1 - sigLen d.limbs) = quot.drop (sigLen u + 1 - sigLen d.limbs) ∧
      val u = val (quot'.take (sigLen u + 1 - sigLen d.limbs)) * d.toNat + rem.toNat ∧
      rem.toNat < d.toNat := by
  have hdl : sigLen d.limbs ≠ 0 := by
    intro h; rw [sigLen_eq_zero, val_limbs] at h; exact hd h
  have hul : sigLen u ≠ 0 := by
    intro h; rw [sigLen_eq_zero] at h; exact hu h
  obtain ⟨lo, w, s, e, hl, hs, hidx, hs64, hvd, lo', w', e', hl', hw'⟩ := dn_spec d.limbs hdl
  rw [val_limbs] at hvd
  obtain ⟨ulo, uw, ue, huw, hulen⟩ := sigLen_top u hul
  have hul4 := sigLen_le u
  have huidx : idx u ((sigLen u : Int) - 1) = .ok uw := by
    rw [show (sigLen u : Int) - 1 = ((sigLen u - 1 : Nat) : Int) by omega, idx_nat _ _ (by omega)]
    congr 1
    have h1 : (u.take (sigLen u))[sigLen u - 1]? = some uw := by
      rw [ue, ← hulen]; simp
    rw [List.getElem?_take_of_lt (by omega), List.getElem?_eq_getElem (by omega)] at h1
    exact Option.some.inj h1
  have hvu : val (shlWords s 0 (u.take (sigLen u)) ++ [uw >>> (64 - s)]) = val u * 2 ^ s := by
    have hv := val_shlWords s hs64 (u.take (sigLen u)) 0
    have hlast : (u.take (sigLen u)).getLastD 0 = uw := by rw [ue]; simp
    rw [hlast, word_toNat_zero, Nat.zero_div, Nat.add_zero, val_take_sigLen] at hv
    rw [val_append, length_shlWords, ← hv]
    simp only [val_cons, val_nil, BitVec.toNat_ushiftRight, Nat.shiftRight_eq_div_pow, Nat.mul_zero, Nat.add_zero]
  have hulen' : (shlWords s 0 (u.take (sigLen u))).length = sigLen u := by
    rw [length_shlWords, List.length_take, Nat.min_eq_left hul4]
  have htopw : (uw >>> (64 - s)).toNat < 2 ^ s := by
    rw [BitVec.toNat_ushiftRight, Nat.shiftRight_eq_div_pow]
    apply Nat.div_lt_of_lt_mul
    rw [← pow_add, show 64 - s + s = 64 by omega]
    exact uw.isLt
  have hs63 : (2 : Nat) ^ s ≤ 2 ^ 63 := Nat.pow_le_pow_right (by norm_num) (by omega)
  have hrec := reciprocal2by1_spec hw'
  obtain ⟨v, hv0, hv1, hv2⟩ := hrec
  unfold udivrem
  dsimp only
  rw [if_neg hdl, hidx]
  simp only [Except_bind_ok]
  rw [if_neg hul, huidx, ← hs]
  simp only [Except_bind_ok]
  rw [e'] at hvd ⊢
  generalize hun : shlWords s 0 (u.take (sigLen u)) = un0 at *
  generalize uw >>> (64 - s) = tw at *
  have hpos : 0 < 2 ^ s := by positivity
  by_cases h1d : sigLen d.limbs = 1
  · rw [if_pos h1d]
    have hlo0 : lo' = [] := by
      apply List.length_eq_zero_iff.1; omega
    subst hlo0
    have i0 : idx ([] ++ [w']) 0 = .ok w' := rfl
    rw [i0]
    simp only [Except_bind_ok]
    unfold udivremBy1
    rw [hv0]
    simp only [Except_bind_ok]
    have it : idx (un0 ++ [tw]) (((un0 ++ [tw]).length : Int) - 1) = .ok tw := by
      rw [show (((un0 ++ [tw]).length : Int) - 1) = ((un0.length : Nat) : Int) by simp]
      rw [idx_nat _ _ (by simp)]
      simp
    rw [it]
    simp only [Except_bind_ok]
    have hlen1 : (un0 ++ [tw]).length - 1 = sigLen u := by simp [hulen']
    rw [hlen1]
    rw [h1d, Nat.add_sub_cancel] at h2 ⊢
    obtain ⟨quot', rem', hrun, hql, hqd, hval, hlt⟩ := udivremBy1Loop_spec hw' hv1 hv2 (un0 ++ [tw]) (sigLen u) quot tw
      (by simp [hulen']) h2 (by omega)
    rw [hrun]
    simp only [Except_bind_ok]
    refine ⟨quot', _, rfl, hql, hqd, ?_⟩
    rw [toNat_ofWord, BitVec.toNat_ushiftRight, Nat.shiftRight_eq_div_pow]
    simp only [List.nil_append, val_cons, val_nil, Nat.mul_zero, Nat.add_zero] at hvd
    have htk : (un0 ++ [tw]).take (sigLen u) = un0 := by rw [← hulen']; simp
    rw [htk] at hval
    rw [val_append, hulen'] at hvu
    simp only [val_cons, val_nil, Nat.mul_zero, Nat.add_zero] at hvu
    rw [hvu, hvd] at hval
    rw [hvd] at hlt
    have hr : rem'.toNat = 2 ^ s * (rem'.toNat / 2 ^ s) := by
      have hdvd : 2 ^ s ∣ rem'.toNat := by
        have : 2 ^ s ∣ val (quot'.take (sigLen u)) * (d.toNat * 2 ^ s) + rem'.toNat := hval ▸ Dvd.intro_left _ rfl
        exact (Nat.dvd_add_right ⟨_, (by rw [← Nat.mul_assoc, Nat.mul_comm])⟩).1 this
      exact (Nat.mul_div_cancel' hdvd).symm
    constructor
    · apply Nat.eq_of_mul_eq_mul_right hpos
      rw [hval]
      conv_lhs => rw [hr]
      ring
    · rw [hr, Nat.mul_comm] at hlt
      exact Nat.lt_of_mul_lt_mul_right hlt
  · rw [if_neg h1d]
    have hlo' : lo' ≠ [] := by
      intro h; rw [h] at hl'; simp at hl'; omega
    obtain ⟨dlo, dl, hdlo⟩ := list_split_last lo' hlo'
    have hdn : lo' ++ [w'] = dlo ++ [dl, w'] := by rw [hdlo]; simp
    rw [hdn] at hvd ⊢
    have hdlen : (dlo ++ [dl, w']).length = sigLen d.limbs := by rw [← hdn, ← hl]; simp [hl']
    have hdlen2 : dlo.length + 2 = sigLen d.limbs := by rw [← hdlen]; simp
    unfold udivremKnuth
    have ih : idx (dlo ++ [dl, w']) (((dlo ++ [dl, w']).length : Int) - 1) = .ok w' := by
      rw [hdlen, ← hdlen2, show ((dlo.length + 2 : Nat) : Int) - 1 = ((dlo.length + 1 : Nat) : Int) by omega]
      rw [idx_nat _ _ (by simp)]
      simp
    have il : idx (dlo ++ [dl, w']) (((dlo ++ [dl, w']).length : Int) - 2) = .ok dl := by
      rw [hdlen, ← hdlen2, show ((dlo.length + 2 : Nat) : Int) - 2 = ((dlo.length : Nat) : Int) by omega]
      rw [idx_nat _ _ (by simp)]
      simp
    rw [ih, il]
    simp only [Except_bind_ok]
    rw [hv0]
    simp only [Except_bind_ok]
    have hunlen : (un0 ++ [tw]).length = sigLen u + 1 := by simp [hulen']
    rw [hunlen, hdlen]
    generalize hJ : sigLen u + 1 - sigLen d.limbs = J at *
    -- split un
    have hJle : J ≤ un0.length := by omega
    have hsplit : un0 ++ [tw] = un0.take J ++ (un0.drop J ++ [tw]) ++ [] := by
      rw [List.append_nil, ← List.append_assoc, List.take_append_drop]
    have htoplen : (un0.drop J ++ [tw]).length = sigLen d.limbs := by simp [hulen']; omega
    have htop : val (un0.drop J ++ [tw]) < val (dlo ++ [dl, w']) := by
      have hdl : (un0.drop J).length = dlo.length + 1 := by simp [hulen']; omega
      have hlt := val_lt (un0.drop J)
      have hge : val (dlo ++ [dl, w']) ≥ 2 ^ (64 * (dlo.length + 1)) * w'.toNat := by
        rw [val_append]
        simp only [val_cons, val_nil, Nat.mul_zero, Nat.add_zero]
        have : 2 ^ (64 * (dlo.length + 1)) * w'.toNat = 2 ^ (64 * dlo.length) * (2 ^ 64 * w'.toNat) := by
          rw [show 64 * (dlo.length + 1) = 64 * dlo.length + 64 by ring, pow_add, Nat.mul_assoc]
        rw [this, Nat.mul_add]
        omega
      rw [val_append, hdl]
      rw [hdl] at hlt
      simp only [val_cons, val_nil, Nat.mul_zero, Nat.add_zero]
      have h3 : 2 ^ (64 * (dlo.length + 1)) * (tw.toNat + 1) ≤ 2 ^ (64 * (dlo.length + 1)) * w'.toNat :=
        Nat.mul_le_mul_left _ (by omega)
      rw [Nat.mul_add, Nat.mul_one] at h3
      omega
    obtain ⟨quot', t, hi', hrun, hql, hqd, htl, hval, hlt⟩ := knuthLoop_spec (d := dlo ++ [dl, w']) rfl hw' hv1 hv2 J quot
      (un0.take J) (un0.drop J ++ [tw]) [] (by simp [hJle]) (by rw [htoplen, hdlen]) htop h2
    rw [← hsplit] at hrun
    rw [hrun]
    simp only [Except_bind_ok]
    obtain ⟨rs, hrs, hrsl, hrsv⟩ := remWords_spec s hs64 (sigLen d.limbs) t hi' (by rw [htl, hdlen]) (sigLen d.limbs)
      (le_refl _) (by omega)
    rw [hrs]
    refine ⟨quot', ofWords rs, rfl, hql, hqd, ?_⟩
    rw [toNat_ofWords rs (by rw [hrsl]; exact limbs_take_le d), hrsv, Nat.sub_self, List.drop_zero]
    have hun : un0.take J ++ (un0.drop J ++ [tw]) = un0 ++ [tw] := by
      rw [← List.append_assoc, List.take_append_drop]
    rw [hun, hvu, hvd] at hval
    rw [hvd] at hlt
    have hr : val t = 2 ^ s * (val t / 2 ^ s) := by
      have hdvd : 2 ^ s ∣ val t := by
        have : 2 ^ s ∣ val (quot'.take J) * (d.toNat * 2 ^ s) + val t := hval ▸ Dvd.intro_left _ rfl
        exact (Nat.dvd_add_right ⟨_, (by rw [← Nat.mul_assoc, Nat.mul_comm])⟩).1 this
      exact (Nat.mul_div_cancel' hdvd).symm
    constructor
    · apply Nat.eq_of_mul_eq_mul_right hpos
      rw [hval]
      conv_lhs => rw [hr]
      ring
    · rw [hr, Nat.mul_comm] at hlt
      exact Nat.lt_of_mul_lt_mul_right hlt

/-- A zero dividend or divisor panics (index -1). -/
theorem udivrem_zero (quot u : List Word) (d : U256) (h : d.toNat = 0 ∨ val u = 0) :
    udivrem quot u d = .error .panic := by
  unfold udivrem
  dsimp only
  by_cases hdl : sigLen d.limbs = 0
  · rw [if_pos hdl]; rfl
  · rw [if_neg hdl]
    have hul : sigLen u = 0 := by
      rcases h with h | h
      · rw [← val_limbs, ← sigLen_eq_zero] at h; exact absurd h hdl
      · rwa [sigLen_eq_zero]
    obtain ⟨lo, w, s, e, hl, hs, hidx, _⟩ := dn_spec d.limbs hdl
    rw [hidx]
    simp only [Except_bind_ok]
    rw [if_pos hul]; rfl

/-- The value of a quotient buffer that started out as zeros. -/
theorem val_quot_zeros (quot : List Word) (k n : Nat)
    (hd : quot.drop k = (List.replicate n (0 : Word)).drop k) : val quot = val (quot.take k) := by
  have h1 : val quot = val (quot.take k ++ quot.drop k) := by rw [List.take_append_drop]
  rw [h1, val_append, hd, List.drop_replicate]
  have : ∀ m : Nat, val (List.replicate m (0 : Word)) = 0 := by
    intro m
    induction m with
    | zero => rfl
    | succ m ih => rw [List.replicate_succ, val_cons, ih]; rfl
  rw [this]; omega

theorem isUint64_toNat {x : U256} (h : x.isUint64 = true) : x.w0.toNat = x.toNat := by
  have h1 := (isUint64_iff x).1 h
  unfold isUint64 at h
  unfold toNat at *
  have := x.w0.isLt
  omega

/-- The full quotient and remainder for 256-bit operands with a 4-word buffer. -/
theorem udivrem_256 (x y : U256) (hy : y.toNat ≠ 0) (hle : y.toNat ≤ x.toNat) :
    ∃ q rem, udivrem [0, 0, 0, 0] x.limbs y = .ok (q, rem) ∧ (ofWords q).toNat = x.toNat / y.toNat ∧
      rem.toNat = x.toNat % y.toNat := by
  have hx : val x.limbs ≠ 0 := by rw [val_limbs]; omega
  have hdl : sigLen y.limbs ≠ 0 := by
    intro h; rw [sigLen_eq_zero, val_limbs] at h; exact hy h
  have hul : sigLen x.limbs ≠ 0 := by
    intro h; rw [sigLen_eq_zero] at h; exact hx h
  have hb1 := (sigLen_bounds _ hdl).1
  have hb2 := (sigLen_bounds _ hul).2
  have hlen : sigLen y.limbs ≤ sigLen x.limbs := by
    by_contra hc
    have : 2 ^ (64 * sigLen x.limbs) ≤ 2 ^ (64 * (sigLen y.limbs - 1)) :=
      Nat.pow_le_pow_right (by norm_num) (by omega)
    rw [val_limbs] at hb1 hb2
    omega
  obtain ⟨q, rem, hr, hql, hqd, hv, hlt⟩ := udivrem_spec [0, 0, 0, 0] x.limbs y hy hx (by omega)
    (by have := limbs_take_le x; simp; omega)
  rw [← val_quot_zeros q _ 4 hqd, val_limbs] at hv
  refine ⟨q, rem, hr, ?_, ?_⟩
  · rw [toNat_ofWords q (by rw [hql]; simp), hv, Nat.mul_comm, Nat.mul_add_div (by omega), Nat.div_eq_of_lt hlt,
      Nat.add_zero]
  · rw [hv, Nat.mul_comm, Nat.mul_add_mod, Nat.mod_eq_of_lt hlt]

/-- `Div` never panics and computes the floor quotient (0 on a zero divisor). -/
theorem div_spec (x y : U256) : ∃ z, div x y = .ok z ∧ z.toNat = x.toNat / y.toNat := by
  unfold div
  by_cases h1 : (y.isZero || y.gt x) = true
  · rw [if_pos h1]
    refine ⟨zero, rfl, ?_⟩
    rw [Bool.or_eq_true, isZero_iff, gt_iff] at h1
    rw [toNat_zero]
    rcases h1 with h | h
    · rw [h, Nat.div_zero]
    · exact (Nat.div_eq_of_lt h).symm
  · rw [if_neg h1]
    rw [Bool.or_eq_true, isZero_iff, gt_iff] at h1
    push Not at h1
    by_cases h2 : x.eq y = true
    · rw [if_pos h2]
      rw [eq_iff] at h2
      refine ⟨one, rfl, ?_⟩
      rw [toNat_one, h2, Nat.div_self (by omega)]
    · rw [if_neg h2]
      by_cases h3 : x.isUint64 = true
      · rw [if_pos h3]
        refine ⟨_, rfl, ?_⟩
        have hx := isUint64_toNat h3
        have hxl := (isUint64_iff x).1 h3
        have hy := isUint64_toNat ((isUint64_iff y).2 (by omega))
        have := Nat.div_le_self x.toNat y.toNat
        rw [toNat_ofWord, BitVec.toNat_ofNat, hx, hy, Nat.mod_eq_of_lt (by omega)]
      · rw [if_neg h3]
        obtain ⟨q, rem, hr, hq, _⟩ := udivrem_256 x y h1.1 h1.2
        rw [hr]
        exact ⟨ofWords q, rfl, hq⟩

/-- `Mod` never panics and computes the remainder (0 on a zero divisor). -/
theorem mod_spec (x y : U256) : ∃ z, mod x y = .ok z ∧
    z.toNat = if y.toNat = 0 then 0 else x.toNat % y.toNat := by
  unfold mod
  by_cases h1 : (x.isZero || y.isZero) = true
  · rw [if_pos h1]
    refine ⟨zero, rfl, ?_⟩
    rw [Bool.or_eq_true, isZero_iff, isZero_iff] at h1
    rw [toNat_zero]
    rcases h1 with h | h
    · rw [h, Nat.zero_mod]; simp
    · rw [if_pos h]
  · rw [if_neg h1]
    rw [Bool.or_eq_true, isZero_iff, isZero_iff] at h1
    push Not at h1
    rw [if_neg h1.2]
    by_cases h2 : x.cmp y = -1
    · rw [if_pos h2]
      exact ⟨x, rfl, (Nat.mod_eq_of_lt ((cmp_neg_iff x y).1 h2)).symm⟩
    · rw [if_neg h2]
      by_cases h3 : x.cmp y = 0
      · rw [if_pos h3]
        refine ⟨zero, rfl, ?_⟩
        rw [(cmp_zero_iff x y).1 h3, Nat.mod_self, toNat_zero]
      · rw [if_neg h3]
        have hlt : y.toNat < x.toNat := by
          rw [cmp_neg_iff] at h2
          rw [cmp_zero_iff] at h3
          omega
        by_cases h4 : x.isUint64 = true
        · rw [if_pos h4]
          refine ⟨_, rfl, ?_⟩
          have hx := isUint64_toNat h4
          have hxl := (isUint64_iff x).1 h4
          have hy := isUint64_toNat ((isUint64_iff y).2 (by omega))
          have := Nat.mod_le x.toNat y.toNat
          rw [toNat_ofWord, BitVec.toNat_ofNat, hx, hy, Nat.mod_eq_of_lt (by omega)]
        · rw [if_neg h4]
          obtain ⟨q, rem, hr, _, hm⟩ := udivrem_256 x y h1.2 (by omega)
          rw [hr]
          exact ⟨rem, rfl, hm⟩

end U256
end Uni
