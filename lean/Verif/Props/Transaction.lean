import Verif.Model.Transaction
import Verif.Proofs.Decimal
import Verif.Props.Conversion
import Verif.Props.Executor
/-! # Properties of the transaction file -/
namespace Uni
namespace Props
open U256 Spec

/-! ## C56 -/

/-- The text written for a number is its usual decimal text; it determines the number. -/
theorem C56_text (b : Int) : DecCanonical (Dec.bigString b) b ∧ ∀ c, DecText (Dec.bigString b) c → c = b :=
  ⟨Dec.bigString_canonical b, fun _ h => Dec.decText_unique h (Dec.canonical_text (Dec.bigString_canonical b))⟩

example : Dec.bigString (-1200) = "-1200" ∧ Dec.bigString 0 = "0" ∧
    DecText "+007" 7 ∧ DecCanonical "-120" (-120) := by
  refine ⟨by decide +kernel, by decide +kernel, (Dec.setString_iff _ _).1 (by decide +kernel), ?_⟩
  have h := Dec.bigString_canonical (-120)
  rwa [show Dec.bigString (-120) = "-120" by decide +kernel] at h

/-- The loader reads every decimal text as its value modulo 2^256 (a negative number in two's complement), and a missing
amount as 0. -/
theorem C56_parse (junk : String → Int) (s : String) :
    (∀ b, DecText s b → ((stringToUint256 junk s).toNat : Int) = b % 2 ^ 256) ∧
    (s = "" → stringToUint256 junk s = zero) := by
  refine ⟨?_, ?_⟩
  · intro b h
    unfold stringToUint256
    rw [(Dec.setString_iff s b).2 h]
    exact (C11_big zero b).2.2.1
  · rintro rfl
    show (match Dec.setString "" with
      | some b => (fromBig b).1
      | none => if "" = "" then (fromBig 0).1 else (fromBig (junk "")).1) = zero
    rw [show Dec.setString "" = none by decide +kernel]
    show (if ("" : String) = "" then (fromBig 0).1 else (fromBig (junk "")).1) = zero
    rw [if_pos rfl]
    decide +kernel

/-- Every 256-bit amount is read back as it was, whatever its sign. -/
theorem C56_amount (junk : String → Int) (z : U256) :
    DecCanonical (Dec.bigString (sToBig z)) z.toInt ∧ stringToUint256 junk (Dec.bigString (sToBig z)) = z := by
  refine ⟨(C11_big z 0).2.1 ▸ Dec.bigString_canonical _, ?_⟩
  unfold stringToUint256
  rw [Dec.setString_bigString]
  show (fromBig (sToBig z)).1 = z
  rw [(C11_big z 0).2.2.2.2.2]

example (junk : String → Int) : stringToUint256 junk "-5" = neg (ofWord 5) := by
  have := (C56_amount junk (neg (ofWord 5))).2
  rwa [show Dec.bigString (sToBig (neg (ofWord 5))) = "-5" by decide +kernel] at this

theorem parse_format (b : Bool) : parseBool (formatBool b) = b := by cases b <;> decide +kernel

theorem parse_empty (junk : String → Int) : stringToUint256 junk "" = zero := (C56_parse junk "").2 rfl

/-- A swap is read back without its liquidity amount and its ticks. -/
theorem C56_swap (junk : String → Int) (t : Transaction) (h : t.type = "Swap") :
    ∃ x, t.marshal = .ok x ∧ x.load junk = { t with amount := zero, tickLower := 0, tickUpper := 0 } := by
  refine ⟨_, by unfold Transaction.marshal; rw [if_pos h], ?_⟩
  unfold TransactionInput.load
  dsimp only
  rw [(C56_amount junk _).2, (C56_amount junk _).2, (C56_amount junk _).2, parse_format, parse_empty]

/-- A mint or burn is read back without the price, the tick and the flag. -/
theorem C56_mint_burn (junk : String → Int) (t : Transaction) (h : t.type = "Mint" ∨ t.type = "Burn") :
    ∃ x, t.marshal = .ok x ∧ x.load junk = { t with sqrtPrice := zero, tick := 0, useX96 := false } := by
  have hn : t.type ≠ "Swap" := by rcases h with h | h <;> rw [h] <;> decide
  refine ⟨_, by unfold Transaction.marshal; rw [if_neg hn, if_pos h], ?_⟩
  unfold TransactionInput.load
  dsimp only
  rw [(C56_amount junk _).2, (C56_amount junk _).2, (C56_amount junk _).2, parse_empty]
  rw [show parseBool "" = false by decide +kernel]

/-- A flash loan is read back with its two amounts, its identifier and its time. -/
theorem C56_flash (junk : String → Int) (t : Transaction) (h : t.type = "Flash") :
    ∃ x, t.marshal = .ok x ∧ x.load junk =
      { t with amount := zero, sqrtPrice := zero, tick := 0, tickLower := 0, tickUpper := 0, useX96 := false } := by
  have hn : t.type ≠ "Swap" := by rw [h]; decide
  have hm : ¬ (t.type = "Mint" ∨ t.type = "Burn") := by rw [h]; decide
  refine ⟨_, by unfold Transaction.marshal; rw [if_neg hn, if_neg hm, if_pos h], ?_⟩
  unfold TransactionInput.load
  dsimp only
  rw [(C56_amount junk _).2, (C56_amount junk _).2, parse_empty]
  rw [show parseBool "" = false by decide +kernel]

/-- Encoding panics exactly for the types other than `Swap`, `Mint`, `Burn` and `Flash`. -/
theorem C56_types (t : Transaction) :
    (∃ x, t.marshal = .ok x) ↔ t.type = "Swap" ∨ t.type = "Mint" ∨ t.type = "Burn" ∨ t.type = "Flash" := by
  unfold Transaction.marshal
  by_cases h1 : t.type = "Swap"
  · rw [if_pos h1]; exact ⟨fun _ => Or.inl h1, fun _ => ⟨_, rfl⟩⟩
  · rw [if_neg h1]
    by_cases h2 : t.type = "Mint" ∨ t.type = "Burn"
    · rw [if_pos h2]
      exact ⟨fun _ => Or.inr (h2.elim Or.inl fun h => Or.inr (Or.inl h)), fun _ => ⟨_, rfl⟩⟩
    · rw [if_neg h2]
      by_cases h3 : t.type = "Flash"
      · rw [if_pos h3]; exact ⟨fun _ => Or.inr (Or.inr (Or.inr h3)), fun _ => ⟨_, rfl⟩⟩
      · rw [if_neg h3]
        constructor
        · rintro ⟨x, hx⟩; cases hx
        · rintro (h | h | h | h)
          · exact absurd h h1
          · exact absurd (Or.inl h) h2
          · exact absurd (Or.inr h) h2
          · exact absurd h h3

/-- The executor cannot tell a transaction from the one read back. -/
def SameEffect (t u : Transaction) : Prop :=
  t.timestamp = u.timestamp ∧ ∀ fuel p, t.apply fuel p = u.apply fuel p

theorem load_same (junk : String → Int) {t : Transaction} {x : TransactionInput} (h : t.marshal = .ok x) :
    SameEffect (x.load junk) t := by
  have n1 : ¬ ("Swap" : String) = "Mint" := by decide
  have n2 : ¬ ("Swap" : String) = "Burn" := by decide
  have n3 : ¬ ("Burn" : String) = "Mint" := by decide
  have n4 : ¬ ("Flash" : String) = "Mint" := by decide
  have n5 : ¬ ("Flash" : String) = "Burn" := by decide
  have n6 : ¬ ("Flash" : String) = "Swap" := by decide
  rcases (C56_types t).1 ⟨x, h⟩ with ht | ht | ht | ht
  · obtain ⟨y, h1, h2⟩ := C56_swap junk t ht
    rw [Except.ok.inj (h.symm.trans h1), h2]
    refine ⟨rfl, fun fuel p => ?_⟩
    unfold Transaction.apply
    simp only [ht, if_neg n1, if_neg n2]
  · obtain ⟨y, h1, h2⟩ := C56_mint_burn junk t (Or.inl ht)
    rw [Except.ok.inj (h.symm.trans h1), h2]
    refine ⟨rfl, fun fuel p => ?_⟩
    unfold Transaction.apply
    simp only [ht]
  · obtain ⟨y, h1, h2⟩ := C56_mint_burn junk t (Or.inr ht)
    rw [Except.ok.inj (h.symm.trans h1), h2]
    refine ⟨rfl, fun fuel p => ?_⟩
    unfold Transaction.apply
    simp only [ht, if_neg n3]
  · obtain ⟨y, h1, h2⟩ := C56_flash junk t ht
    rw [Except.ok.inj (h.symm.trans h1), h2]
    refine ⟨rfl, fun fuel p => ?_⟩
    unfold Transaction.apply
    simp only [ht, if_neg n4, if_neg n5, if_neg n6]

theorem step_same (e f : Execution) (he : { e with transactions := [] } = { f with transactions := [] }) (fuel : Nat)
    {t u : Transaction} (h : SameEffect t u) (st : RunState) : e.step fuel t st = f.step fuel u st := by
  obtain ⟨e1, e2, e3, e4, e5, e6, e7, e8⟩ := e
  obtain ⟨f1, f2, f3, f4, f5, f6, f7, f8⟩ := f
  simp only [Execution.mk.injEq, and_true] at he
  obtain ⟨rfl, rfl, rfl, rfl, rfl, rfl, rfl⟩ := he
  unfold Execution.step Execution.startIf Execution.priceIf Execution.valueIf Execution.rebalanceIf Execution.applyTrans
  rw [h.1]
  simp only [h.2]

theorem loop_same (e f : Execution) (he : { e with transactions := [] } = { f with transactions := [] }) (fuel : Nat)
    {ts us : List Transaction} (h : List.Forall₂ SameEffect ts us) (st : RunState) :
    e.loop fuel ts st = f.loop fuel us st := by
  induction h generalizing st with
  | nil => rfl
  | @cons t u ts us h1 _ ih =>
    unfold Execution.loop
    have hend : e.endTime = f.endTime := by
      have := congrArg Execution.endTime he; exact this
    rw [h1.1, hend, step_same e f he fuel h1]
    congr 1
    congr 1
    funext st'
    exact ih st'

theorem marshalAll_same (junk : String → Int) {ts : List Transaction} {xs : List TransactionInput}
    (h : marshalAll ts = .ok xs) : List.Forall₂ SameEffect (getTransactions junk xs) ts := by
  induction ts generalizing xs with
  | nil => cases h; exact .nil
  | cons t ts ih =>
    obtain ⟨x, h1, h⟩ := Pool.bind_ok h
    obtain ⟨ys, h2, h⟩ := Pool.bind_ok h
    cases h
    exact .cons (load_same junk h1) (ih h2)

/-- A run over a transaction list that was written to a file and read back is the run over the original list: it panics,
or ends with the same strategy, pool and snapshots, in the same cases. -/
theorem C56_replay (junk : String → Int) (txs : List Transaction) (file : List TransactionInput)
    (h : marshalAll txs = .ok file) (e : Execution) (fuel : Nat) :
    (({ e with transactions := getTransactions junk file } : Execution).run fuel).map
        (fun r => (r.strategy, r.snapshots)) =
      (({ e with transactions := txs } : Execution).run fuel).map (fun r => (r.strategy, r.snapshots)) := by
  unfold Execution.run
  rw [loop_same { e with transactions := getTransactions junk file } { e with transactions := txs } rfl fuel
    (marshalAll_same junk h)]
  show ((Execution.loop { e with transactions := txs } fuel txs (Execution.initial e)) >>= _).map _ =
    ((Execution.loop { e with transactions := txs } fuel txs (Execution.initial e)) >>= _).map _
  cases Execution.loop { e with transactions := txs } fuel txs (Execution.initial e) with
  | error x => rfl
  | ok st =>
    show (st.strategy.burnAll >>= _).map _ = (st.strategy.burnAll >>= _).map _
    cases st.strategy.burnAll with
    | error x => rfl
    | ok b =>
      show (Execution.usd b.1 b.2.pool.price >>= _).map _ = (Execution.usd b.1 b.2.pool.price >>= _).map _
      cases Execution.usd b.1 b.2.pool.price <;> rfl

/-- A file with one transaction of each type; the swap gives -7 of token0 and takes 5 of token1. -/
example : ∃ file, marshalAll [ExecDemo.tx "Mint" 100 0,
      { ExecDemo.tx "Swap" 200 5 with amount0 := neg (ofWord 7), tick := -3, useX96 := true }, ExecDemo.tx "Burn" 300 0,
      ExecDemo.tx "Flash" 400 9] = .ok file ∧
    file.map (·.amount0) = ["0", "-7", "0", "0"] ∧ file.map (·.amount) = ["50000000", "", "50000000", ""] ∧
    file.map (·.tickLower) = [-600, 0, -600, 0] ∧ file.map (·.useX96) = ["", "true", "", ""] :=
  ⟨getOk (marshalAll _) (by decide +kernel), eq_getOk _ _, by decide +kernel, by decide +kernel, by decide +kernel,
    by decide +kernel⟩

end Props
end Uni
