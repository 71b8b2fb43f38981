import Verif.GenPr
import Verif.Intended
import Mathlib.Tactic.Choose
import Mathlib.Data.List.Forall2

/-! Helper lemmas for C41, C42 and C49: the generated tokens, read with Rust's precedence. -/

namespace Verif.Prec
open Verif Rust GenPr Intended

/-- What can follow a complete test. -/
def Stops (rest : List Tok) : Prop :=
  ∀ t r, rest = t :: r → t = symAnd ∨ t = symOr ∨ t = symClose ∨ t = symLBrace

theorem stops_nil : Stops [] := by intro t r h; simp at h
theorem stops_and (r) : Stops (symAnd :: r) := by intro t r h; simp at h; exact .inl h.1.symm
theorem stops_or (r) : Stops (symOr :: r) := by intro t r h; simp at h; exact .inr (.inl h.1.symm)
theorem stops_close (r) : Stops (symClose :: r) := by intro t r h; simp at h; exact .inr (.inr (.inl h.1.symm))
theorem stops_brace (r) : Stops (symLBrace :: r) := by intro t r h; simp at h; exact .inr (.inr (.inr h.1.symm))

theorem Stops.cases {rest : List Tok} (h : Stops rest) {C : List Tok → Prop} (h0 : C []) (h1 : ∀ r, C (symAnd :: r))
    (h2 : ∀ r, C (symOr :: r)) (h3 : ∀ r, C (symClose :: r)) (h4 : ∀ r, C (symLBrace :: r)) : C rest := by
  cases rest with
  | nil => exact h0
  | cons t r => 
    rcases h t r rfl with rfl | rfl | rfl | rfl
    · exact h1 r
    · exact h2 r
    · exact h3 r
    · exact h4 r

/-! ## Atoms -/

theorem unary_field (o : Operand) (k : Nat) (rest : List Tok) :
    pUnary (k + 2) (qField o ++ rest) = some (.field o, rest) := by
  cases o <;> rfl

theorem unary_lit (n k : Nat) (rest : List Tok) (h : rest.head? ≠ some symDot) :
    pUnary (k + 2) (.lit n [] :: rest) = some (.int n, rest) := by
  have : pUnary (k + 2) (.lit n [] :: rest) = pPrimary (k + 1) (.lit n [] :: rest) := rfl
  rw [this]
  match rest with
  | [] => rfl
  | .id _ :: _ => rfl
  | .lit _ _ :: _ => rfl
  | .str _ :: _ => rfl
  | [.sym d] => rfl
  | .sym d :: .id _ :: _ => rfl
  | .sym d :: .str _ :: _ => rfl
  | .sym d :: .sym _ :: _ => rfl
  | .sym d :: .lit _ (_ :: _) :: _ => rfl
  | .sym d :: .lit z [] :: r =>
    have hd : d ≠ c!"." := by rintro rfl; exact h rfl
    have : pPrimary (k + 1) (.lit n [] :: .sym d :: .lit z [] :: r) =
      if d = c!"." ∧ z = 0 then some (.flt n, r) else some (.int n, .sym d :: .lit z [] :: r) := rfl
    rw [this, if_neg (fun h' => hd h'.1)]

theorem unary_flt (n k : Nat) (rest : List Tok) : pUnary (k + 2) (qFloat (.lit n []) ++ rest) = some (.flt n, rest) := rfl

theorem rem_of_unary {k : Nat} {ts rest : List Tok} {e : RExpr} (h : pUnary (k + 1) ts = some (e, rest))
    (hr : rest.head? ≠ some symRem) : pRem (k + 2) ts = some (e, rest) := by
  have : pRem (k + 2) ts = match pUnary (k + 1) ts with
    | none => none
    | some (a, r) => pRemTail (k + 1) a r := rfl
  rw [this, h]
  cases rest with
  | nil => rfl
  | cons t r =>
    have : pRemTail (k + 1) e (t :: r) = if t = symRem then
      match pUnary k r with
      | none => none
      | some (b, r') => pRemTail k (.rem e b) r'
    else some (e, t :: r) := rfl
    exact this.trans (if_neg (by rintro rfl; exact hr rfl))

/-- `po.x` or `po.x % m`, before something else. -/
theorem rem_leftSide (o : Operand) (m : Option Nat) (k : Nat) (rest : List Tok) (h1 : rest.head? ≠ some symRem)
    (h2 : rest.head? ≠ some symDot) :
    pRem (k + 5) ((match m with | none => qField o | some m => qFieldMod o (convertLiteral m)) ++ rest) =
      some (leftSide o m, rest) := by
  cases m with
  | none => exact rem_of_unary (unary_field o _ rest) h1
  | some m =>
    have e1 : pRem (k + 5) (qFieldMod o (convertLiteral m) ++ rest) =
      match pUnary (k + 4) (qField o ++ (symRem :: .lit m [] :: rest)) with
      | none => none
      | some (a, r) => pRemTail (k + 4) a r := by
        simp only [qFieldMod, List.append_assoc]; rfl
    simp only [e1, unary_field]
    have e2 : pRemTail (k + 4) (.field o) (symRem :: .lit m [] :: rest) =
      match pUnary (k + 3) (.lit m [] :: rest) with
      | none => none
      | some (b, r') => pRemTail (k + 3) (.rem (.field o) b) r' := rfl
    simp only [e2, unary_lit m _ rest h2]
    cases rest with
    | nil => rfl
    | cons t r =>
      exact if_neg (by rintro rfl; exact h1 rfl)

theorem rem_lit (n k : Nat) (rest : List Tok) (h1 : rest.head? ≠ some symRem) (h2 : rest.head? ≠ some symDot) :
    pRem (k + 3) (.lit n [] :: rest) = some (.int n, rest) := rem_of_unary (unary_lit n _ rest h2) h1

theorem rem_flt (n k : Nat) (rest : List Tok) (h1 : rest.head? ≠ some symRem) :
    pRem (k + 3) (qFloat (.lit n []) ++ rest) = some (.flt n, rest) := rem_of_unary (unary_flt n _ rest) h1

theorem Stops.notRem {rest : List Tok} (h : Stops rest) : rest.head? ≠ some symRem := by
  refine h.cases (C := fun rest => rest.head? ≠ some symRem) ?_ ?_ ?_ ?_ ?_ <;> simp <;> decide
theorem Stops.notDot {rest : List Tok} (h : Stops rest) : rest.head? ≠ some symDot := by
  refine h.cases (C := fun rest => rest.head? ≠ some symDot) ?_ ?_ ?_ ?_ ?_ <;> simp <;> decide

/-- A comparison. -/
theorem cmp_of_rem {k : Nat} {ts r rest : List Tok} {t : Tok} {op : CmpOp} {a b : RExpr} (ho : cmpOf t = some op)
    (h1 : pRem k ts = some (a, t :: r)) (h2 : pRem k r = some (b, rest)) :
    pCmp (k + 1) ts = some (.cmp op a b, rest) := by
  have : pCmp (k + 1) ts = match pRem k ts with
    | none => none
    | some (a, []) => some (a, [])
    | some (a, t :: r) =>
      match cmpOf t with
      | none => some (a, t :: r)
      | some op =>
        match pRem k r with
        | none => none
        | some (b, r') => some (.cmp op a b, r') := rfl
  rw [this, h1]; simp only [ho, h2]

theorem cmp_of_only_rem {k : Nat} {ts rest : List Tok} {a : RExpr} (hs : Stops rest) (h1 : pRem k ts = some (a, rest)) :
    pCmp (k + 1) ts = some (a, rest) := by
  have : pCmp (k + 1) ts = match pRem k ts with
    | none => none
    | some (a, []) => some (a, [])
    | some (a, t :: r) =>
      match cmpOf t with
      | none => some (a, t :: r)
      | some op =>
        match pRem k r with
        | none => none
        | some (b, r') => some (.cmp op a b, r') := rfl
  rw [this, h1]
  refine hs.cases (C := fun rest => (match some (a, rest) with
    | none => none
    | some (a, []) => some (a, [])
    | some (a, t :: r) =>
      match cmpOf t with
      | none => some (a, t :: r)
      | some op =>
        match pRem k r with
        | none => none
        | some (b, r') => some (.cmp op a b, r')) = some (a, rest)) ?_ ?_ ?_ ?_ ?_
  · rfl
  all_goals intro r; rfl

/-! ## Tests, ands and ors -/

/-- `ts` is a test with the meaning `e`: read as far as `ts` goes, whatever follows. -/
def IsCmp (ts : List Tok) (e : RExpr) : Prop :=
  ∀ k rest, 10 * ts.length + 10 ≤ k → Stops rest → pCmp k (ts ++ rest) = some (e, rest)

/-- The same for a chain of `&&`, which must not be followed by `&&`. -/
def IsAnd (ts : List Tok) (e : RExpr) : Prop :=
  ∀ k rest, 10 * ts.length + 12 ≤ k → Stops rest → rest.head? ≠ some symAnd → pAnd k (ts ++ rest) = some (e, rest)

/-- The same for a chain of `||` of those. -/
def IsOr (ts : List Tok) (e : RExpr) : Prop :=
  ∀ k rest, 10 * ts.length + 14 ≤ k → Stops rest → rest.head? ≠ some symAnd → rest.head? ≠ some symOr →
    pOr k (ts ++ rest) = some (e, rest)

theorem andTail_stop (k : Nat) (a : RExpr) (rest : List Tok) (h : rest.head? ≠ some symAnd) :
    pAndTail (k + 1) a rest = some (a, rest) := by
  cases rest with
  | nil => rfl
  | cons t r => exact if_neg (by rintro rfl; exact h rfl)

theorem orTail_stop (k : Nat) (a : RExpr) (rest : List Tok) (h : rest.head? ≠ some symOr) :
    pOrTail (k + 1) a rest = some (a, rest) := by
  cases rest with
  | nil => rfl
  | cons t r => exact if_neg (by rintro rfl; exact h rfl)

/-- The tokens that `sepBy` puts after the first element. -/
def seps (sep : Tok) (l : List (List Tok)) : List Tok := (l.map fun x => sep :: x).flatten

theorem sepBy_cons (sep : Tok) (x : List Tok) (l : List (List Tok)) : sepBy sep (x :: l) = x ++ seps sep l := by
  induction l generalizing x with
  | nil => simp [sepBy, seps]
  | cons y l ih => simp [sepBy, ih, seps]

theorem andTail_chain (l : List (List Tok × RExpr)) (h : ∀ p ∈ l, IsCmp p.1 p.2) (a : RExpr) (k : Nat) (rest : List Tok)
    (hk : 10 * (seps symAnd (l.map (·.1))).length + 10 ≤ k) (hs : Stops rest) (hr : rest.head? ≠ some symAnd) :
    pAndTail k a (seps symAnd (l.map (·.1)) ++ rest) = some ((l.map (·.2)).foldl .and a, rest) := by
  induction l generalizing a k with
  | nil => obtain ⟨k, rfl⟩ : ∃ j, k = j + 1 := ⟨k - 1, by omega⟩; exact andTail_stop k a rest hr
  | cons p l ih =>
    obtain ⟨k, rfl⟩ : ∃ j, k = j + 1 := ⟨k - 1, by omega⟩
    have e : seps symAnd ((p :: l).map (·.1)) ++ rest = symAnd :: (p.1 ++ (seps symAnd (l.map (·.1)) ++ rest)) := by
      simp [seps]
    have hl : (seps symAnd ((p :: l).map (·.1))).length = 1 + p.1.length + (seps symAnd (l.map (·.1))).length := by
      simp [seps]; omega
    rw [hl] at hk
    rw [e]
    have e2 : ∀ r, pAndTail (k + 1) a (symAnd :: r) = match pCmp k r with
      | none => none
      | some (b, r') => pAndTail k (.and a b) r' := fun r => rfl
    have hst : Stops (seps symAnd (l.map (·.1)) ++ rest) := by
      cases l with
      | nil => simpa [seps] using hs
      | cons q l => simpa [seps] using stops_and _
    rw [e2, h p (by simp) k _ (by omega) hst]
    exact ih (fun p hp => h p (by simp [hp])) _ _ (by omega)

theorem isAnd_chain (p : List Tok × RExpr) (l : List (List Tok × RExpr)) (h : ∀ q ∈ p :: l, IsCmp q.1 q.2) :
    IsAnd (sepBy symAnd ((p :: l).map (·.1))) ((l.map (·.2)).foldl .and p.2) := by
  intro k rest hk hs hr
  obtain ⟨k, rfl⟩ : ∃ j, k = j + 1 := ⟨k - 1, by omega⟩
  simp only [List.map_cons, sepBy_cons, List.length_append, List.append_assoc] at hk ⊢
  have e2 : ∀ r, pAnd (k + 1) r = match pCmp k r with
      | none => none
      | some (a, r) => pAndTail k a r := fun r => rfl
  have hst : Stops (seps symAnd (l.map (·.1)) ++ rest) := by
    cases l with
    | nil => simpa [seps] using hs
    | cons q l => simpa [seps] using stops_and _
  rw [e2, h p (by simp) k _ (by omega) hst]
  exact andTail_chain l (fun q hq => h q (by simp [hq])) _ _ _ (by omega) hs hr

theorem orTail_chain (l : List (List Tok × RExpr)) (h : ∀ p ∈ l, IsAnd p.1 p.2) (a : RExpr) (k : Nat) (rest : List Tok)
    (hk : 10 * (seps symOr (l.map (·.1))).length + 12 ≤ k) (hs : Stops rest) (hr : rest.head? ≠ some symAnd)
    (hr' : rest.head? ≠ some symOr) :
    pOrTail k a (seps symOr (l.map (·.1)) ++ rest) = some ((l.map (·.2)).foldl .or a, rest) := by
  induction l generalizing a k with
  | nil => obtain ⟨k, rfl⟩ : ∃ j, k = j + 1 := ⟨k - 1, by omega⟩; exact orTail_stop k a rest hr'
  | cons p l ih =>
    obtain ⟨k, rfl⟩ : ∃ j, k = j + 1 := ⟨k - 1, by omega⟩
    have e : seps symOr ((p :: l).map (·.1)) ++ rest = symOr :: (p.1 ++ (seps symOr (l.map (·.1)) ++ rest)) := by
      simp [seps]
    have hl : (seps symOr ((p :: l).map (·.1))).length = 1 + p.1.length + (seps symOr (l.map (·.1))).length := by
      simp [seps]; omega
    rw [hl] at hk
    rw [e]
    have e2 : ∀ r, pOrTail (k + 1) a (symOr :: r) = match pAnd k r with
      | none => none
      | some (b, r') => pOrTail k (.or a b) r' := fun r => rfl
    have hst : Stops (seps symOr (l.map (·.1)) ++ rest) ∧ (seps symOr (l.map (·.1)) ++ rest).head? ≠ some symAnd := by
      cases l with
      | nil => simpa [seps] using ⟨hs, hr⟩
      | cons q l => exact ⟨by simpa [seps] using stops_or _, by simp [seps]; decide⟩
    rw [e2, h p (by simp) k _ (by omega) hst.1 hst.2]
    exact ih (fun p hp => h p (by simp [hp])) _ _ (by omega)

theorem isOr_chain (p : List Tok × RExpr) (l : List (List Tok × RExpr)) (h : ∀ q ∈ p :: l, IsAnd q.1 q.2) :
    IsOr (sepBy symOr ((p :: l).map (·.1))) ((l.map (·.2)).foldl .or p.2) := by
  intro k rest hk hs hr hr'
  obtain ⟨k, rfl⟩ : ∃ j, k = j + 1 := ⟨k - 1, by omega⟩
  simp only [List.map_cons, sepBy_cons, List.length_append, List.append_assoc] at hk ⊢
  have e2 : ∀ r, pOr (k + 1) r = match pAnd k r with
      | none => none
      | some (a, r) => pOrTail k a r := fun r => rfl
  have hst : Stops (seps symOr (l.map (·.1)) ++ rest) ∧ (seps symOr (l.map (·.1)) ++ rest).head? ≠ some symAnd := by
    cases l with
    | nil => simpa [seps] using ⟨hs, hr⟩
    | cons q l => exact ⟨by simpa [seps] using stops_or _, by simp [seps]; decide⟩
  rw [e2, h p (by simp) k _ (by omega) hst.1 hst.2]
  exact orTail_chain l (fun q hq => h q (by simp [hq])) _ _ _ (by omega) hs hr hr'

/-- One test is a chain of `&&`. -/
theorem IsCmp.isAnd {ts : List Tok} {e : RExpr} (h : IsCmp ts e) : IsAnd ts e := by
  simpa [sepBy] using isAnd_chain (ts, e) [] (by simpa using h)

/-- One chain of `&&` is a chain of `||`. -/
theorem IsAnd.isOr {ts : List Tok} {e : RExpr} (h : IsAnd ts e) : IsOr ts e := by
  simpa [sepBy] using isOr_chain (ts, e) [] (by simpa using h)

/-- After `(` these tokens are not the head of a range. -/
def NotRange (ts : List Tok) : Prop := ∀ rest, rangeHead (symOpen :: ts ++ rest) = none

theorem NotRange.append {ts : List Tok} (h : NotRange ts) (us : List Tok) : NotRange (ts ++ us) := by
  intro rest
  have := h (us ++ rest)
  simpa using this

/-- A group in parentheses. -/
theorem unary_group {ts : List Tok} {e : RExpr} (h : IsOr ts e) (hg : NotRange ts) (k : Nat) (rest : List Tok)
    (hk : 10 * ts.length + 16 ≤ k) : pUnary k (symOpen :: (ts ++ (symClose :: rest))) = some (e, rest) := by
  obtain ⟨k, rfl⟩ : ∃ j, k = j + 2 := ⟨k - 2, by omega⟩
  have e1 : ∀ r, rangeHead (symOpen :: r) = none → pPrimary (k + 1) (symOpen :: r) = match pOr k r with
    | some (a, .sym c :: r') => if c = c!")" then some (a, r') else none
    | _ => none := by
    intro r hr
    have : pPrimary (k + 1) (symOpen :: r) = match rangeHead (symOpen :: r) with
      | some (lo, hi, r) =>
        match pUnary k r with
        | some (a, .sym c :: r') => if c = c!")" then some (.contains lo hi a, r') else none
        | _ => none
      | none => if c!"(" = c!"(" then
        match pOr k r with
        | some (a, .sym c :: r') => if c = c!")" then some (a, r') else none
        | _ => none
      else none := rfl
    rw [this, hr]; rfl
  have e2 : ∀ r, pUnary (k + 2) (symOpen :: r) = pPrimary (k + 1) (symOpen :: r) := fun r => rfl
  rw [e2, e1 _ (by simpa using hg (symClose :: rest)), h k _ (by omega) (stops_close _) (by simp; decide) (by simp; decide)]
  rfl

theorem isCmp_group {ts : List Tok} {e : RExpr} (h : IsOr ts e) (hg : NotRange ts) :
    IsCmp (symOpen :: ts ++ [symClose]) e := by
  intro k rest hk hs
  obtain ⟨k, rfl⟩ : ∃ j, k = j + 3 := ⟨k - 3, by omega⟩
  simp only [List.length_append, List.length_cons, List.length_nil] at hk
  have e0 : symOpen :: ts ++ [symClose] ++ rest = symOpen :: (ts ++ (symClose :: rest)) := by simp
  rw [e0]
  exact cmp_of_only_rem hs (rem_of_unary (unary_group h hg (k + 1) rest (by omega)) hs.notRem)

/-! ## The tests of a relation -/

/-- The tokens of the left side. -/
def leftTokens (o : Operand) : Option Nat → List Tok
  | none => qField o
  | some m => qFieldMod o (convertLiteral m)

theorem leftTokens_length (o : Operand) (m : Option Nat) : 3 ≤ (leftTokens o m).length := by
  cases m <;> simp [leftTokens, qField, qFieldMod]

theorem rem_leftTokens (o : Operand) (m : Option Nat) (k : Nat) (rest : List Tok) (h1 : rest.head? ≠ some symRem)
    (h2 : rest.head? ≠ some symDot) : pRem (k + 5) (leftTokens o m ++ rest) = some (leftSide o m, rest) := by
  have := rem_leftSide o m k rest h1 h2
  cases m <;> exact this

theorem leftTokens_notRange (o : Operand) (m : Option Nat) : NotRange (leftTokens o m) := by
  intro rest; cases m <;> rfl

theorem leftTokens_isCmp (o : Operand) (m : Option Nat) : IsCmp (leftTokens o m) (leftSide o m) := by
  intro k rest hk hs
  obtain ⟨k, rfl⟩ : ∃ j, k = j + 6 := ⟨k - 6, by omega⟩
  exact cmp_of_only_rem hs (rem_leftTokens o m k rest hs.notRem hs.notDot)

/-- `left op lit` -/
theorem isCmp_left_lit (o : Operand) (m : Option Nat) (t : Tok) (op : CmpOp) (ho : cmpOf t = some op) (n : Nat) :
    IsCmp (leftTokens o m ++ t :: [.lit n []]) (.cmp op (leftSide o m) (.int n)) := by
  intro k rest hk hs
  obtain ⟨k, rfl⟩ : ∃ j, k = j + 6 := ⟨k - 6, by omega⟩
  have h1 : t ≠ symRem := by rintro rfl; exact nomatch ho
  have h2 : t ≠ symDot := by rintro rfl; exact nomatch ho
  rw [List.append_assoc]
  exact cmp_of_rem ho (rem_leftTokens o m k _ (by simpa using h1) (by simpa using h2))
    (rem_lit n _ rest hs.notRem hs.notDot)

/-- `left op float` -/
theorem isCmp_left_flt (o : Operand) (t : Tok) (op : CmpOp) (ho : cmpOf t = some op) (n : Nat) :
    IsCmp (qField o ++ t :: qFloat (.lit n [])) (.cmp op (.field o) (.flt n)) := by
  intro k rest hk hs
  obtain ⟨k, rfl⟩ : ∃ j, k = j + 6 := ⟨k - 6, by omega⟩
  have h1 : t ≠ symRem := by rintro rfl; exact nomatch ho
  have h2 : t ≠ symDot := by rintro rfl; exact nomatch ho
  rw [List.append_assoc]
  exact cmp_of_rem ho (rem_leftTokens o none k _ (by simpa using h1) (by simpa using h2))
    (rem_flt n _ rest hs.notRem)

/-- `lit op left` -/
theorem isCmp_lit_left (o : Operand) (m : Option Nat) (t : Tok) (op : CmpOp) (ho : cmpOf t = some op) (n : Nat) :
    IsCmp (.lit n [] :: t :: leftTokens o m) (.cmp op (.int n) (leftSide o m)) := by
  intro k rest hk hs
  obtain ⟨k, rfl⟩ : ∃ j, k = j + 6 := ⟨k - 6, by omega⟩
  have h1 : t ≠ symRem := by rintro rfl; exact nomatch ho
  have h2 : t ≠ symDot := by rintro rfl; exact nomatch ho
  exact cmp_of_rem (ts := .lit n [] :: t :: (leftTokens o m ++ rest)) ho
    (rem_lit n _ _ (by simpa using h1) (by simpa using h2)) (rem_leftTokens o m k rest hs.notRem hs.notDot)

/-- `float op left` -/
theorem isCmp_flt_left (o : Operand) (t : Tok) (op : CmpOp) (ho : cmpOf t = some op) (n : Nat) :
    IsCmp (qFloat (.lit n []) ++ t :: qField o) (.cmp op (.flt n) (.field o)) := by
  intro k rest hk hs
  obtain ⟨k, rfl⟩ : ∃ j, k = j + 6 := ⟨k - 6, by omega⟩
  have h1 : t ≠ symRem := by rintro rfl; exact nomatch ho
  rw [List.append_assoc]
  exact cmp_of_rem ho (rem_flt n _ _ (by simpa using h1)) (rem_leftTokens o none k rest hs.notRem hs.notDot)

theorem unary_contains (lo hi : Nat) (o : Operand) (m : Option Nat) (k : Nat) (rest : List Tok)
    (hk : 10 * (leftTokens o m).length + 20 ≤ k) :
    pUnary k (qContains (.lit lo []) (.lit hi []) (leftTokens o m) ++ rest) =
      some (.contains lo hi (leftSide o m), rest) := by
  obtain ⟨k, rfl⟩ : ∃ j, k = j + 2 := ⟨k - 2, by omega⟩
  have hq : qContains (.lit lo []) (.lit hi []) (leftTokens o m) ++ rest =
      symOpen :: .lit lo [] :: symRange :: .lit hi [] :: symClose :: symDot :: .id c!"contains" :: symOpen :: symAmp ::
        (symOpen :: (leftTokens o m ++ (symClose :: (symClose :: rest)))) := by
    simp [qContains]
  rw [hq]
  have e1 : ∀ r, pUnary (k + 2) (symOpen :: .lit lo [] :: symRange :: .lit hi [] :: symClose :: symDot ::
      .id c!"contains" :: symOpen :: symAmp :: r) =
      match pUnary k r with
      | some (a, .sym c :: r') => if c = c!")" then some (.contains lo hi a, r') else none
      | _ => none := fun r => rfl
  rw [e1, unary_group (leftTokens_isCmp o m).isAnd.isOr (leftTokens_notRange o m) k _ (by omega)]
  rfl

theorem qContains_length (a b : Tok) (s : List Tok) : (qContains a b s).length = s.length + 12 := by
  simp [qContains]

theorem isCmp_contains (lo hi : Nat) (o : Operand) (m : Option Nat) :
    IsCmp (qContains (.lit lo []) (.lit hi []) (leftTokens o m)) (.contains lo hi (leftSide o m)) := by
  intro k rest hk hs
  rw [qContains_length] at hk
  obtain ⟨k, rfl⟩ : ∃ j, k = j + 3 := ⟨k - 3, by omega⟩
  exact cmp_of_only_rem hs (rem_of_unary (unary_contains lo hi o m (k + 1) rest (by omega)) hs.notRem)

theorem isCmp_not_contains (lo hi : Nat) (o : Operand) (m : Option Nat) :
    IsCmp (symNot :: qContains (.lit lo []) (.lit hi []) (leftTokens o m)) (.not (.contains lo hi (leftSide o m))) := by
  intro k rest hk hs
  simp only [List.length_cons, qContains_length] at hk
  obtain ⟨k, rfl⟩ : ∃ j, k = j + 4 := ⟨k - 4, by omega⟩
  have e1 : ∀ r, pUnary (k + 2) (symNot :: r) = match pUnary (k + 1) r with
      | none => none
      | some (a, r') => some (.not a, r') := fun r => rfl
  refine cmp_of_only_rem hs (rem_of_unary ?_ hs.notRem)
  rw [List.cons_append, e1, unary_contains lo hi o m (k + 1) rest (by omega)]

/-! ## Relations -/

/-- Tests as tokens and as expressions. -/
abbrev Tests := List (List Tok × RExpr)

/-- Each is a test that can stand at the start of a group. -/
def Tests.Good (l : Tests) : Prop := ∀ p ∈ l, IsCmp p.1 p.2 ∧ NotRange p.1

theorem Tests.Good.isAnd {p : List Tok × RExpr} {l : Tests} (h : Tests.Good (p :: l)) :
    IsAnd (sepBy symAnd ((p :: l).map (·.1))) ((l.map (·.2)).foldl .and p.2) :=
  isAnd_chain p l fun q hq => (h q hq).1

theorem sepBy_notRange {sep : Tok} {x : List Tok} {l : List (List Tok)} (h : NotRange x) :
    NotRange (sepBy sep (x :: l)) := by
  rw [sepBy_cons]; exact h.append _

theorem sepBy_append {sep : Tok} {a b : List (List Tok)} (ha : a ≠ []) (hb : b ≠ []) :
    sepBy sep (a ++ b) = sepBy sep a ++ sep :: sepBy sep b := by
  match a, ha, b, hb with
  | x :: a, _, y :: b, _ => simp [sepBy_cons, seps]

theorem sepBy_flatten (sep : Tok) (ls : List (List (List Tok))) (h : ∀ l ∈ ls, l ≠ []) :
    sepBy sep (ls.map (sepBy sep)) = sepBy sep ls.flatten := by
  induction ls with
  | nil => rfl
  | cons l ls ih =>
    cases ls with
    | nil => simp [sepBy]
    | cons m ls =>
      have hm : (m :: ls).flatten ≠ [] := by
        have := h m (by simp)
        simp [this]
      rw [List.flatten_cons, sepBy_append (h l (by simp)) hm, ← ih fun l hl => h l (by simp [hl])]
      simp [sepBy_cons, seps]

/-- The tests of one item. -/
def itemPairs (e : Expression) (positive : Bool) (op : Tok) : RangeListItem → Tests
  | .value k =>
    if e.operand = .N then
      match e.modulus with
      | none => [(qField .N ++ op :: qFloat (.lit k []), valueTest e (if positive then .eq else .ne) k)]
      | some m => [(leftTokens .I (some m) ++ op :: [.lit k []], valueTest e (if positive then .eq else .ne) k)]
    else [(leftTokens e.operand e.modulus ++ op :: [.lit k []], valueTest e (if positive then .eq else .ne) k)]
  | .range lo hi =>
    let toks := fun o m => if positive then qContains (.lit lo []) (.lit hi []) (leftTokens o m)
      else symNot :: qContains (.lit lo []) (.lit hi []) (leftTokens o m)
    let test := fun x => if positive then RExpr.contains lo hi x else .not (.contains lo hi x)
    if e.operand = .N then
      match e.modulus with
      | none => [(toks .I none, test (.field .I)),
          (leftTokens .F none ++ .sym c!"==" :: [.lit 0 []], .cmp .eq (.field .F) (.int 0))]
      | some _ => [(toks .I none, test (.field .I))]
    else [(toks e.operand e.modulus, test (leftSide e.operand e.modulus))]

theorem itemPairs_ne (e positive op item) : itemPairs e positive op item ≠ [] := by
  cases item <;> simp only [itemPairs] <;> split <;> (try split) <;> simp

theorem itemPairs_exprs (e positive op item) : (itemPairs e positive op item).map (·.2) = itemTests e positive item := by
  obtain ⟨o, m⟩ := e
  by_cases hN : o = .N <;> cases item <;> cases m <;> simp [itemPairs, itemTests, rangeTests, hN]

theorem itemPairs_good (e : Expression) (positive : Bool) (op : Tok)
    (ho : cmpOf op = some (if positive then .eq else .ne)) (item : RangeListItem) :
    (itemPairs e positive op item).Good := by
  intro p hp
  obtain ⟨o, m⟩ := e
  have hc : ∀ lo hi o m, IsCmp (if positive then qContains (.lit lo []) (.lit hi []) (leftTokens o m)
      else symNot :: qContains (.lit lo []) (.lit hi []) (leftTokens o m))
      (if positive then RExpr.contains lo hi (leftSide o m) else .not (.contains lo hi (leftSide o m))) ∧
      NotRange (if positive then qContains (.lit lo []) (.lit hi []) (leftTokens o m)
      else symNot :: qContains (.lit lo []) (.lit hi []) (leftTokens o m)) := by
    intro lo hi o m
    cases positive
    · exact ⟨isCmp_not_contains lo hi o m, fun rest => rfl⟩
    · exact ⟨isCmp_contains lo hi o m, fun rest => rfl⟩
  cases item with
  | value k =>
    by_cases hN : o = .N
    · subst hN
      cases m with
      | none =>
        simp only [itemPairs, if_true, List.mem_singleton] at hp
        subst hp
        exact ⟨isCmp_left_flt .N op _ ho k, (leftTokens_notRange .N none).append _⟩
      | some m =>
        simp only [itemPairs, if_true, List.mem_singleton] at hp
        subst hp
        exact ⟨isCmp_left_lit .I (some m) op _ ho k, (leftTokens_notRange .I (some m)).append _⟩
    · simp only [itemPairs, hN, if_false, List.mem_singleton] at hp
      subst hp
      refine ⟨?_, (leftTokens_notRange o m).append _⟩
      simp only [valueTest, hN, if_false]
      exact isCmp_left_lit o m op _ ho k
  | range lo hi =>
    by_cases hN : o = .N
    · subst hN
      cases m with
      | none =>
        simp only [itemPairs, if_true, List.mem_cons, List.not_mem_nil, or_false] at hp
        rcases hp with rfl | rfl
        · exact hc lo hi .I none
        · exact ⟨isCmp_left_lit .F none _ _ rfl 0, (leftTokens_notRange .F none).append _⟩
      | some m =>
        simp only [itemPairs, if_true, List.mem_singleton] at hp
        subst hp
        exact hc lo hi .I none
    · simp only [itemPairs, hN, if_false, List.mem_singleton] at hp
      subst hp
      exact hc lo hi o m

theorem value_pairs (e : Expression) (op : Operator) (k : Nat) : valueTokens e op (convertLiteral k) =
    sepBy symAnd ((itemPairs e (isPositive op) (getOperatorSymbol op) (.value k)).map (·.1)) := by
  obtain ⟨o, m⟩ := e
  by_cases hN : o = .N
  · subst hN; cases m <;> rfl
  · cases m <;> simp [valueTokens, itemPairs, hN, sepBy, leftTokens, convertLiteral]

theorem range_pairs (e : Expression) (op : Operator) (lo hi : Nat) : rangeTokens e op (convertRange lo hi) =
    sepBy symAnd ((itemPairs e (isPositive op) (getOperatorSymbol op) (.range lo hi)).map (·.1)) := by
  obtain ⟨o, m⟩ := e
  by_cases hN : o = .N
  · subst hN
    cases m <;> simp only [rangeTokens, itemPairs, if_true] <;> cases isPositive op <;>
      simp [sepBy, leftTokens, convertRange, convertLiteral, qPerim]
  · cases m <;> simp only [rangeTokens, itemPairs, hN, if_false] <;> cases isPositive op <;>
      simp [sepBy, leftTokens, convertRange, convertLiteral]

/-- The streams that `create_relation` collects, values first. -/
theorem relations_eq (e : Expression) (op : Operator) (l : List RangeListItem) :
    (convertRangl l).1.map (valueTokens e op) ++ (convertRangl l).2.map (rangeTokens e op) =
      (ordered l).map fun x => sepBy symAnd ((itemPairs e (isPositive op) (getOperatorSymbol op) x).map (·.1)) := by
  rw [ordered, List.map_append]
  congr 1
  · induction l with
    | nil => rfl
    | cons x l ih =>
      cases x with
      | range lo hi => exact ih
      | value k =>
        show valueTokens e op (convertLiteral k) :: _ = _ :: _
        rw [value_pairs, ih]
  · induction l with
    | nil => rfl
    | cons x l ih =>
      cases x with
      | value k => exact ih
      | range lo hi =>
        show rangeTokens e op (convertRange lo hi) :: _ = _ :: _
        rw [range_pairs, ih]

/-- The tests of a relation: the generated tokens are their chain. -/
theorem relation_tokens (r : Relation) (ts : List Tok) (h : createRelation r = some ts)
    (hne : isWithin r.operator = false → r.rangeList ≠ []) :
    ∃ l : Tests, l ≠ [] ∧ l.Good ∧ ts = sepBy symAnd (l.map (·.1)) ∧ l.map (·.2) = relationTests r := by
  obtain ⟨e, op, rl⟩ := r
  have hw : ∀ (op : Operator) (c : CmpOp), cmpOf (getOperatorSymbol op) = some c → ∀ rl : List RangeListItem, ∀ ts,
      (withinTokens e op (convertRangl rl).2).map (fun t => sepBy symOr [t]) = some ts →
      ∃ l : Tests, l ≠ [] ∧ l.Good ∧ ts = sepBy symAnd (l.map (·.1)) ∧ l.map (·.2) = withinTests e c rl := by
    intro op c hc rl ts h
    induction rl with
    | nil => simp [convertRangl, withinTokens] at h
    | cons x rl ih =>
      cases x with
      | value k => exact ih h
      | range lo hi =>
        obtain ⟨o, m⟩ := e
        have nr : ∀ t n (us : Operand × Option Nat), cmpOf t = some c → NotRange (.lit n [] :: t :: leftTokens us.1 us.2) := by
          intro t n us ht rest
          obtain ⟨o, m⟩ := us
          cases t with
          | sym s =>
            cases m <;> simp only [leftTokens, qFieldMod, qField] <;> rfl
          | _ => exact nomatch ht
        have nf : ∀ n, NotRange (qFloat (.lit n []) ++ getOperatorSymbol op :: qField .N) := by
          intro n rest; cases op <;> rfl
        simp only [convertRangl, withinTokens, convertRange, convertLiteral, Option.map_some, Option.some.injEq, sepBy] at h
        subst h
        cases m with
        | none =>
          by_cases hN : o = .N
          · subst hN
            refine ⟨[(qFloat (.lit lo []) ++ getOperatorSymbol op :: qField .N, .cmp c (.flt lo) (.field .N)),
              (qField .N ++ getOperatorSymbol op :: qFloat (.lit hi []), .cmp c (.field .N) (.flt hi))], by simp, ?_, ?_, ?_⟩
            · intro p hp
              simp only [List.mem_cons, List.not_mem_nil, or_false] at hp
              rcases hp with rfl | rfl
              · exact ⟨isCmp_flt_left .N _ _ hc lo, nf lo⟩
              · exact ⟨isCmp_left_flt .N _ _ hc hi, (leftTokens_notRange .N none).append _⟩
            · simp [sepBy]
            · rfl
          · refine ⟨[(.lit lo [] :: getOperatorSymbol op :: leftTokens o none, .cmp c (.int lo) (.field o)),
              (leftTokens o none ++ getOperatorSymbol op :: [.lit hi []], .cmp c (.field o) (.int hi))], by simp, ?_, ?_, ?_⟩
            · intro p hp
              simp only [List.mem_cons, List.not_mem_nil, or_false] at hp
              rcases hp with rfl | rfl
              · exact ⟨isCmp_lit_left o none _ _ hc lo, nr _ _ (o, none) hc⟩
              · exact ⟨isCmp_left_lit o none _ _ hc hi, (leftTokens_notRange o none).append _⟩
            · simp [sepBy, hN, leftTokens]
            · cases o <;> first | contradiction | rfl
        | some m =>
          refine ⟨[(.lit lo [] :: getOperatorSymbol op :: leftTokens .I (some m), .cmp c (.int lo) (leftSide .I (some m))),
            (leftTokens .I (some m) ++ getOperatorSymbol op :: [.lit hi []], .cmp c (leftSide .I (some m)) (.int hi))],
            by simp, ?_, ?_, ?_⟩
          · intro p hp
            simp only [List.mem_cons, List.not_mem_nil, or_false] at hp
            rcases hp with rfl | rfl
            · exact ⟨isCmp_lit_left .I (some m) _ _ hc lo, nr _ _ (.I, some m) hc⟩
            · exact ⟨isCmp_left_lit .I (some m) _ _ hc hi, (leftTokens_notRange .I (some m)).append _⟩
          · by_cases hN : o = .N <;> simp [sepBy, hN, leftTokens, convertLiteral]
          · cases o <;> rfl
  have hlen : ∀ l : List RangeListItem, (ordered l).length = l.length := by
    intro l
    unfold ordered
    induction l with
    | nil => rfl
    | cons x l ih =>
      simp only [List.filter_cons]
      cases isValue x <;> simp at * <;> omega
  have hpos : ∀ op, isPositive op = true → isWithin op = false → cmpOf (getOperatorSymbol op) = some .eq →
      rl ≠ [] → ∀ ts, createRelation ⟨e, op, rl⟩ = some ts →
      ∃ l : Tests, l ≠ [] ∧ l.Good ∧ ts = sepBy symAnd (l.map (·.1)) ∧ l.map (·.2) =
        match (ordered rl).map (itemTests e true) with
        | [] => []
        | [tests] => tests
        | several => (anyOf (several.filterMap allOf)).toList := by
    intro op hp hw ho hne ts h
    simp only [createRelation, hw, hp, relations_eq, Bool.false_eq_true, if_false, if_true] at h
    have hl := hlen rl
    have hgood : ∀ x, (itemPairs e true (getOperatorSymbol op) x).Good := fun x => itemPairs_good e true _ ho x
    match hord : ordered rl, hl with
    | [], hl => cases rl <;> simp at hl hne
    | [x], _ =>
      rw [hord] at h
      simp only [List.map_cons, List.map_nil, List.length_singleton, gt_iff_lt, Nat.lt_irrefl, if_false, Option.some.injEq] at h
      subst h
      exact ⟨itemPairs e true (getOperatorSymbol op) x, itemPairs_ne _ _ _ _, hgood x, rfl, itemPairs_exprs ..⟩
    | x :: y :: l, _ =>
      rw [hord] at h
      have hlt : ((x :: y :: l).map fun x => sepBy symAnd ((itemPairs e true (getOperatorSymbol op) x).map (·.1))).length > 1 := by
        simp
      rw [if_pos hlt] at h
      simp only [Option.some.injEq] at h
      subst h
      -- the chain of one item
      have hex : ∀ x, ∃ t, allOf (itemTests e true x) = some t ∧
          IsAnd (sepBy symAnd ((itemPairs e true (getOperatorSymbol op) x).map (·.1))) t := by
        intro x
        rw [← itemPairs_exprs e true (getOperatorSymbol op) x]
        match hq : itemPairs e true (getOperatorSymbol op) x, itemPairs_ne e true (getOperatorSymbol op) x with
        | p :: l, _ => exact ⟨_, rfl, (hq ▸ hgood x : Tests.Good (p :: l)).isAnd⟩
      choose t ht hta using hex
      have hnr : ∀ x, NotRange (sepBy symAnd ((itemPairs e true (getOperatorSymbol op) x).map (·.1))) := by
        intro x
        match hq : itemPairs e true (getOperatorSymbol op) x, itemPairs_ne e true (getOperatorSymbol op) x with
        | p :: l, _ => exact sepBy_notRange ((hq ▸ hgood x : Tests.Good (p :: l)) p (by simp)).2
      have hor := isOr_chain (sepBy symAnd ((itemPairs e true (getOperatorSymbol op) x).map (·.1)), t x)
        ((y :: l).map fun x => (sepBy symAnd ((itemPairs e true (getOperatorSymbol op) x).map (·.1)), t x)) (by
          intro q hq
          rcases List.mem_cons.1 hq with rfl | hq
          · exact hta x
          · obtain ⟨z, -, rfl⟩ := List.mem_map.1 hq
            exact hta z)
      have hfm : ∀ l : List RangeListItem, (l.map (itemTests e true)).filterMap allOf = l.map t := by
        intro l
        induction l with
        | nil => rfl
        | cons z l ih => simp [ht z, ih]
      refine ⟨[(symOpen :: sepBy symOr ((x :: y :: l).map fun x => sepBy symAnd
          ((itemPairs e true (getOperatorSymbol op) x).map (·.1))) ++ [symClose], ((y :: l).map t).foldl .or (t x))],
        by simp, ?_, by simp [sepBy], ?_⟩
      · intro p hp
        simp only [List.mem_singleton] at hp
        subst hp
        refine ⟨isCmp_group ?_ (sepBy_notRange (hnr x)), fun rest => ?_⟩
        · simpa [List.map_map, Function.comp_def] using hor
        · rfl
      · have := hfm (x :: y :: l)
        simp only [List.map_cons] at this
        simp only [List.map_cons, List.map_nil, this, anyOf, Option.toList]
  have hneg : ∀ op, isPositive op = false → isWithin op = false → cmpOf (getOperatorSymbol op) = some .ne →
      rl ≠ [] → ∀ ts, createRelation ⟨e, op, rl⟩ = some ts →
      ∃ l : Tests, l ≠ [] ∧ l.Good ∧ ts = sepBy symAnd (l.map (·.1)) ∧ l.map (·.2) =
        ((ordered rl).map (itemTests e false)).flatten := by
    intro op hp hw ho hne ts h
    simp only [createRelation, hw, hp, relations_eq, Bool.false_eq_true, if_false] at h
    simp only [Option.some.injEq] at h
    subst h
    refine ⟨((ordered rl).map (itemPairs e false (getOperatorSymbol op))).flatten, ?_, ?_, ?_, ?_⟩
    · have hl := hlen rl
      match hord : ordered rl, hl with
      | [], hl => cases rl <;> simp at hl hne
      | x :: l, _ =>
        simp [itemPairs_ne]
    · intro p hp
      simp only [List.mem_flatten, List.mem_map] at hp
      obtain ⟨_, ⟨x, -, rfl⟩, hp⟩ := hp
      exact itemPairs_good e false _ ho x p hp
    · rw [List.map_flatten, ← sepBy_flatten]
      · simp [List.map_map, Function.comp_def]
      · simp [itemPairs_ne]
    · rw [List.map_flatten, List.map_map]
      congr 1
      refine List.map_congr_left fun x _ => ?_
      exact itemPairs_exprs ..
  cases op with
  | Within => exact hw .Within .le rfl rl ts h
  | NotWithin => exact hw .NotWithin .gt rfl rl ts h
  | In => exact hpos .In rfl rfl rfl (hne rfl) ts h
  | Is => exact hpos .Is rfl rfl rfl (hne rfl) ts h
  | EQ => exact hpos .EQ rfl rfl rfl (hne rfl) ts h
  | NotIn => exact hneg .NotIn rfl rfl rfl (hne rfl) ts h
  | IsNot => exact hneg .IsNot rfl rfl rfl (hne rfl) ts h
  | NotEQ => exact hneg .NotEQ rfl rfl rfl (hne rfl) ts h

theorem mapPanic_some {f : α → Option β} {l : List α} {bs : List β} (h : mapPanic f l = some bs) :
    List.Forall₂ (fun a b => f a = some b) l bs := by
  induction l generalizing bs with
  | nil => simp [mapPanic] at h; subst h; exact .nil
  | cons a l ih =>
    simp only [mapPanic] at h
    cases ha : f a with
    | none => simp [ha] at h
    | some b =>
      cases hl : mapPanic f l with
      | none => simp [ha, hl] at h
      | some bs' => simp [ha, hl] at h; subst h; exact .cons ha (ih hl)

theorem mapPanic_none {f : α → Option β} {l : List α} : mapPanic f l = none ↔ ∃ a ∈ l, f a = none := by
  induction l with
  | nil => simp [mapPanic]
  | cons a l ih =>
    simp only [mapPanic]
    cases ha : f a with
    | none => simp [ha]
    | some b =>
      cases hl : mapPanic f l with
      | none => simp [ha]; exact ih.1 hl
      | some bs' => simp [ha]; intro x hx hn; rw [ih.2 ⟨x, hx, hn⟩] at hl; simp at hl

/-- A condition that the generator makes an expression of: no empty lists. -/
def Full (c : Condition) : Prop :=
  c ≠ [] ∧ ∀ a ∈ c, a ≠ [] ∧ ∀ r ∈ a, isWithin r.operator = false → r.rangeList ≠ []

theorem and_tokens (a : AndCondition) (ts : List Tok) (h : createAndCondition a = some ts) (hne : a ≠ [])
    (hr : ∀ r ∈ a, isWithin r.operator = false → r.rangeList ≠ []) :
    ∃ e, andCondition a = some e ∧ IsCmp ts e ∧ NotRange ts := by
  simp only [createAndCondition, Option.map_eq_some_iff] at h
  obtain ⟨v, hv, rfl⟩ := h
  have key : ∀ (a : AndCondition) (v : List (List Tok)), List.Forall₂ (fun r b => createRelation r = some b) a v →
      (∀ r ∈ a, isWithin r.operator = false → r.rangeList ≠ []) →
      ∃ ls : List Tests, ls.length = a.length ∧ (∀ l ∈ ls, l ≠ [] ∧ l.Good) ∧
        v = ls.map (fun l => sepBy symAnd (l.map (·.1))) ∧ ls.flatten.map (·.2) = (a.map relationTests).flatten := by
    intro a v hf
    induction hf with
    | nil => intro _; exact ⟨[], rfl, by simp, rfl, rfl⟩
    | @cons r b a v h1 _ ih =>
      intro hr
      obtain ⟨ls, h2, h3, h4, h5⟩ := ih fun r h => hr r (by simp [h])
      obtain ⟨l, g1, g2, g3, g4⟩ := relation_tokens r b h1 (hr r (by simp))
      refine ⟨l :: ls, by simp [h2], ?_, by simp [h4, g3], by simp only [List.flatten_cons, List.map_append, g4, h5, List.map_cons]⟩
      intro l' hl'
      rcases List.mem_cons.1 hl' with rfl | hl'
      · exact ⟨g1, g2⟩
      · exact h3 l' hl'
  obtain ⟨ls, h1, h2, rfl, h4⟩ := key a v (mapPanic_some hv) hr
  have e1 : sepBy symAnd (ls.map fun l => sepBy symAnd (l.map (·.1))) = sepBy symAnd (ls.flatten.map (·.1)) := by
    rw [List.map_flatten, ← sepBy_flatten]
    · simp [List.map_map, Function.comp_def]
    · intro l hl
      obtain ⟨l', hl', rfl⟩ := List.mem_map.1 hl
      simpa using (h2 l' hl').1
  have hg : Tests.Good ls.flatten := by
    intro p hp
    obtain ⟨l, hl, hp⟩ := List.mem_flatten.1 hp
    exact (h2 l hl).2 p hp
  have hfl : ls.flatten ≠ [] := by
    cases ls with
    | nil => exact absurd (List.length_eq_zero_iff.1 h1.symm) hne
    | cons l ls => have := (h2 l (by simp)).1; simp [this]
  rw [e1, andCondition, ← h4]
  match hls : ls.flatten, hfl with
  | p :: l, _ =>
    rw [hls] at hg
    refine ⟨_, rfl, isCmp_group hg.isAnd.isOr (sepBy_notRange (hg p (by simp)).2), ?_⟩
    intro rest; rfl

theorem condition_tokens (c : Condition) (ts : List Tok) (h : genPr c = some ts) (hf : Full c) :
    ∃ e, condition c = some e ∧ IsOr ts e := by
  simp only [genPr, createCondition, Option.map_eq_some_iff] at h
  obtain ⟨v, hv, rfl⟩ := h
  obtain ⟨hne, hf⟩ := hf
  have key : ∀ (c : Condition) (v : List (List Tok)), List.Forall₂ (fun r b => createAndCondition r = some b) c v →
      (∀ a ∈ c, a ≠ [] ∧ ∀ r ∈ a, isWithin r.operator = false → r.rangeList ≠ []) →
      ∃ l : Tests, l.length = c.length ∧ (∀ p ∈ l, IsAnd p.1 p.2) ∧ v = l.map (·.1) ∧
        c.filterMap andCondition = l.map (·.2) := by
    intro c v hf
    induction hf with
    | nil => intro _; exact ⟨[], rfl, by simp, rfl, rfl⟩
    | @cons a b c v h1 _ ih =>
      intro hr
      obtain ⟨l, h2, h3, h4, h5⟩ := ih fun a h => hr a (by simp [h])
      obtain ⟨e, g1, g2, g3⟩ := and_tokens a b h1 (hr a (by simp)).1 (hr a (by simp)).2
      refine ⟨(b, e) :: l, by simp [h2], ?_, by simp [h4], by simp [g1, h5]⟩
      intro p hp
      rcases List.mem_cons.1 hp with rfl | hp
      · exact g2.isAnd
      · exact h3 p hp
  obtain ⟨l, h1, h2, rfl, h4⟩ := key c v (mapPanic_some hv) hf
  rw [condition, h4]
  cases l with
  | nil => exact absurd (List.length_eq_zero_iff.1 h1.symm) hne
  | cons p l => exact ⟨_, rfl, isOr_chain p l h2⟩

/-- C41. -/
theorem parse_condition (c : Condition) (ts : List Tok) (h : genPr c = some ts) (hf : Full c) :
    ∃ e, condition c = some e ∧ parseExpr ts = some e := by
  obtain ⟨e, h1, h2⟩ := condition_tokens c ts h hf
  refine ⟨e, h1, ?_⟩
  have := h2 (fuelFor ts) [] (by unfold fuelFor; omega) stops_nil (by simp) (by simp)
  rw [List.append_nil] at this
  simp [parseExpr, this]

/-! ## Panics of the generator -/

theorem convertRangl_ranges (l : List RangeListItem) : (convertRangl l).2 = [] ↔ ∀ lo hi, RangeListItem.range lo hi ∉ l := by
  induction l with
  | nil => simp [convertRangl]
  | cons x l ih =>
    cases x with
    | value k => simp [convertRangl, ih]
    | range lo hi => simp only [convertRangl]; exact ⟨fun h => by simp at h, fun h => absurd (List.mem_cons_self ..) (h lo hi)⟩

theorem createRelation_none (r : Relation) : createRelation r = none ↔
    isWithin r.operator = true ∧ ∀ lo hi, RangeListItem.range lo hi ∉ r.rangeList := by
  obtain ⟨e, op, l⟩ := r
  rw [← convertRangl_ranges]
  unfold createRelation
  simp only
  cases hw : isWithin op with
  | true =>
    simp only [if_true, Option.map_eq_none_iff, true_and]
    cases (convertRangl l).2 <;> simp [withinTokens]
  | false => simp only [Bool.false_eq_true, if_false, false_and, iff_false]; split <;> (try split) <;> simp

theorem genPr_none (c : Condition) : genPr c = none ↔
    ∃ a ∈ c, ∃ r ∈ a, isWithin r.operator = true ∧ ∀ lo hi, RangeListItem.range lo hi ∉ r.rangeList := by
  simp only [genPr, createCondition, Option.map_eq_none_iff, mapPanic_none, createAndCondition, createRelation_none]

theorem condition_code (c : Condition) (hf : Full c) (hw : ∀ a ∈ c, ∀ r ∈ a, isWithin r.operator = true →
    ∃ lo hi, RangeListItem.range lo hi ∈ r.rangeList) :
    ∃ ts e, genPr c = some ts ∧ condition c = some e ∧ parseExpr ts = some e := by
  cases h : genPr c with
  | none =>
    obtain ⟨a, ha, r, hr, h1, h2⟩ := (genPr_none c).1 h
    obtain ⟨lo, hi, h3⟩ := hw a ha r hr h1
    exact absurd h3 (h2 lo hi)
  | some ts =>
    obtain ⟨e, h1, h2⟩ := parse_condition c ts h hf
    exact ⟨ts, e, rfl, h1, h2⟩

/-! ## Empty lists -/

theorem rangeHead_none (s : Str) (r : List Tok) (h : s ≠ c!"(") : rangeHead (.sym s :: r) = none := by
  unfold rangeHead
  split
  · rename_i heq
    simp only [List.cons.injEq, Tok.sym.injEq] at heq
    rw [if_neg]
    rintro ⟨h1, -⟩
    exact h (heq.1.trans h1)
  · rfl

/-- Nothing that starts with these tokens is a test. -/
theorem cmp_none (k : Nat) (t : Tok) (r : List Tok) (ht : t = symClose ∨ t = symAnd ∨ t = symOr) :
    pCmp k (t :: r) = none := by
  have hp : ∀ k, pPrimary k (t :: r) = none := by
    intro k
    cases k with
    | zero => rfl
    | succ k =>
      have h0 : rangeHead (t :: r) = none := by
        rcases ht with rfl | rfl | rfl <;> exact rangeHead_none _ _ (by decide)
      unfold pPrimary
      rw [h0]
      rcases ht with rfl | rfl | rfl <;> rfl
  have hu : ∀ k, pUnary k (t :: r) = none := by
    intro k
    cases k with
    | zero => rfl
    | succ k => rw [← hp k]; rcases ht with rfl | rfl | rfl <;> rfl
  have hr : ∀ k, pRem k (t :: r) = none := by
    intro k
    cases k with
    | zero => rfl
    | succ k => rw [pRem, hu k]
  cases k with
  | zero => rfl
  | succ k => rw [pCmp, hr k]

theorem and_none_of_cmp {k : Nat} {ts : List Tok} (h : ∀ k, pCmp k ts = none) : pAnd k ts = none := by
  cases k with
  | zero => rfl
  | succ k =>
    have : pAnd (k + 1) ts = match pCmp k ts with
      | none => none
      | some (a, r) => pAndTail k a r := rfl
    rw [this, h]

theorem or_none_of_and {k : Nat} {ts : List Tok} (h : ∀ j ≤ k, pAnd j ts = none) : pOr k ts = none := by
  cases k with
  | zero => rfl
  | succ k =>
    have : pOr (k + 1) ts = match pAnd k ts with
      | none => none
      | some (a, r) => pOrTail k a r := rfl
    rw [this, h k (by omega)]

/-- Tests followed by an empty one. -/
theorem andTail_none (l : Tests) (h : l.Good) (bad : List Tok) (hb : ∀ k, pCmp k bad = none) (a : RExpr) (k : Nat)
    (hk : 10 * (seps symAnd (l.map (·.1))).length + 10 ≤ k) :
    pAndTail k a (seps symAnd (l.map (·.1)) ++ symAnd :: bad) = none := by
  induction l generalizing a k with
  | nil =>
    obtain ⟨k, rfl⟩ : ∃ j, k = j + 1 := ⟨k - 1, by omega⟩
    have e2 : ∀ r, pAndTail (k + 1) a (symAnd :: r) = match pCmp k r with
      | none => none
      | some (b, r') => pAndTail k (.and a b) r' := fun r => rfl
    simp only [seps, List.map_nil, List.flatten_nil, List.nil_append, e2, hb]
  | cons p l ih =>
    obtain ⟨k, rfl⟩ : ∃ j, k = j + 1 := ⟨k - 1, by omega⟩
    have e : seps symAnd ((p :: l).map (·.1)) ++ symAnd :: bad =
        symAnd :: (p.1 ++ (seps symAnd (l.map (·.1)) ++ symAnd :: bad)) := by
      simp [seps]
    have hl : (seps symAnd ((p :: l).map (·.1))).length = 1 + p.1.length + (seps symAnd (l.map (·.1))).length := by
      simp [seps]; omega
    rw [hl] at hk
    rw [e]
    have e2 : ∀ r, pAndTail (k + 1) a (symAnd :: r) = match pCmp k r with
      | none => none
      | some (b, r') => pAndTail k (.and a b) r' := fun r => rfl
    have hst : Stops (seps symAnd (l.map (·.1)) ++ symAnd :: bad) := by
      cases l with
      | nil => simpa [seps] using stops_and _
      | cons q l => simpa [seps] using stops_and _
    rw [e2, (h p (by simp)).1 k _ (by omega) hst]
    exact ih (fun p hp => h p (by simp [hp])) _ _ (by omega)

theorem and_none (l : Tests) (h : l.Good) (bad : List Tok) (hb : ∀ k, pCmp k bad = none) (k : Nat)
    (hk : 10 * (sepBy symAnd (l.map (·.1))).length + 12 ≤ k) :
    pAnd k ((match l with | [] => [] | _ => sepBy symAnd (l.map (·.1)) ++ [symAnd]) ++ bad) = none := by
  cases l with
  | nil => exact and_none_of_cmp hb
  | cons p l =>
    obtain ⟨k, rfl⟩ : ∃ j, k = j + 1 := ⟨k - 1, by omega⟩
    simp only [List.map_cons, sepBy_cons, List.length_append, List.append_assoc] at hk ⊢
    have e2 : ∀ r, pAnd (k + 1) r = match pCmp k r with
        | none => none
        | some (a, r) => pAndTail k a r := fun r => rfl
    have hst : Stops (seps symAnd (l.map (·.1)) ++ ([symAnd] ++ bad)) := by
      cases l with
      | nil => simpa [seps] using stops_and _
      | cons q l => simpa [seps] using stops_and _
    rw [e2, (h p (by simp)).1 k _ (by omega) hst]
    exact andTail_none l (fun q hq => h q (by simp [hq])) bad hb _ _ (by omega)

/-- A relation that no test is generated for. -/
def Empty (r : Relation) : Prop := isWithin r.operator = false ∧ r.rangeList = []

theorem relation_empty (r : Relation) (h : Empty r) : createRelation r = some [] := by
  obtain ⟨e, op, l⟩ := r
  obtain ⟨h1, h2⟩ := h
  simp only at h1 h2; subst h2
  simp only [createRelation, h1, Bool.false_eq_true, if_false, convertRangl, List.map_nil, List.append_nil,
    List.length_nil, gt_iff_lt, Nat.not_lt_zero, sepBy]
  split <;> rfl

/-- The and-condition has a first empty relation: its tokens are tests, then nothing where a test should be. -/
theorem and_split (a : AndCondition) (v : List (List Tok)) (h : mapPanic createRelation a = some v)
    (he : ∃ r ∈ a, Empty r) :
    ∃ l : Tests, l.Good ∧ ∃ rest, (rest = [] ∨ ∃ r', rest = symAnd :: r') ∧
      sepBy symAnd v = (match l with | [] => [] | _ => sepBy symAnd (l.map (·.1)) ++ [symAnd]) ++ rest := by
  have hf := mapPanic_some h
  clear h
  induction hf with
  | nil => simp at he
  | @cons r b a v h1 hv ih =>
    by_cases hr : Empty r
    · rw [relation_empty r hr] at h1
      simp only [Option.some.injEq] at h1; subst h1
      refine ⟨[], by intro p hp; simp at hp, sepBy symAnd ([] :: v), ?_, rfl⟩
      cases v with
      | nil => exact .inl rfl
      | cons x v => exact .inr ⟨sepBy symAnd (x :: v), by simp [sepBy]⟩
    · have he' : ∃ r ∈ a, Empty r := by
        obtain ⟨r', hr', he'⟩ := he
        rcases List.mem_cons.1 hr' with rfl | hr'
        · exact absurd he' hr
        · exact ⟨r', hr', he'⟩
      obtain ⟨l, hl, rest, hrest, heq⟩ := ih he'
      obtain ⟨l0, g1, g2, g3, -⟩ := relation_tokens r b h1 (by
        intro hw hn; exact hr ⟨hw, hn⟩)
      have hv' : v ≠ [] := by
        rintro rfl
        obtain ⟨r', hr', -⟩ := he'
        cases hv
        simp at hr'
      refine ⟨l0 ++ l, ?_, rest, hrest, ?_⟩
      · intro p hp
        rcases List.mem_append.1 hp with hp | hp
        · exact g2 p hp
        · exact hl p hp
      · have hb : sepBy symAnd (b :: v) = b ++ symAnd :: sepBy symAnd v := by
          cases v with
          | nil => contradiction
          | cons x v => rfl
        rw [hb, heq, g3]
        cases l with
        | nil =>
          cases l0 with
          | nil => contradiction
          | cons p l0 => simp
        | cons q l =>
          cases l0 with
          | nil => contradiction
          | cons p l0 =>
            have := sepBy_append (sep := symAnd) (a := (p :: l0).map (·.1)) (b := (q :: l).map (·.1)) (by simp) (by simp)
            simp only [List.cons_append, List.map_cons, List.map_append] at this ⊢
            rw [this]; simp

/-- The group of an and-condition with an empty relation, or without relations, is not a test. -/
theorem and_bad (a : AndCondition) (ts : List Tok) (h : createAndCondition a = some ts) (he : a = [] ∨ ∃ r ∈ a, Empty r)
    (k : Nat) (hk : 10 * ts.length + 10 ≤ k) (rest : List Tok) : pCmp k (ts ++ rest) = none := by
  simp only [createAndCondition, Option.map_eq_some_iff] at h
  obtain ⟨v, hv, rfl⟩ := h
  have hsplit : ∃ l : Tests, l.Good ∧ ∃ rest, (rest = [] ∨ ∃ r', rest = symAnd :: r') ∧
      sepBy symAnd v = (match l with | [] => [] | _ => sepBy symAnd (l.map (·.1)) ++ [symAnd]) ++ rest := by
    rcases he with rfl | he
    · simp only [mapPanic, Option.some.injEq] at hv; subst hv
      exact ⟨[], by intro p hp; simp at hp, [], .inl rfl, rfl⟩
    · exact and_split a v hv he
  obtain ⟨l, hl, r0, hr0, heq⟩ := hsplit
  simp only [List.length_append, List.length_cons, List.length_nil] at hk
  have hlen : (sepBy symAnd (l.map (·.1))).length ≤ (sepBy symAnd v).length := by
    rw [heq]
    cases l with
    | nil => simp [sepBy]
    | cons p l => simp
  obtain ⟨k, rfl⟩ : ∃ j, k = j + 4 := ⟨k - 4, by omega⟩
  have hb : ∀ k, pCmp k (r0 ++ (symClose :: rest)) = none := by
    intro k
    rcases hr0 with rfl | ⟨r', rfl⟩
    · exact cmp_none k _ _ (.inl rfl)
    · exact cmp_none k _ _ (.inr (.inl rfl))
  have hor : pOr k (sepBy symAnd v ++ (symClose :: rest)) = none := by
    obtain ⟨k, rfl⟩ : ∃ j, k = j + 1 := ⟨k - 1, by omega⟩
    have : ∀ ts, pOr (k + 1) ts = match pAnd k ts with
      | none => none
      | some (a, r) => pOrTail k a r := fun _ => rfl
    rw [this, heq, List.append_assoc, and_none l hl _ hb k (by omega)]
  have hnr : rangeHead (symOpen :: (sepBy symAnd v ++ (symClose :: rest))) = none := by
    rw [heq]
    cases l with
    | nil =>
      rcases hr0 with rfl | ⟨r', rfl⟩
      · rfl
      · rfl
    | cons p l =>
      have := sepBy_notRange (sep := symAnd) (l := l.map (·.1)) (hl p (by simp)).2 (symAnd :: (r0 ++ (symClose :: rest)))
      simpa using this
  have hp : pPrimary (k + 1) (symOpen :: (sepBy symAnd v ++ (symClose :: rest))) = none := by
    have : ∀ r, pPrimary (k + 1) (symOpen :: r) = match rangeHead (symOpen :: r) with
      | some (lo, hi, r) =>
        match pUnary k r with
        | some (a, .sym c :: r') => if c = c!")" then some (.contains lo hi a, r') else none
        | _ => none
      | none => if c!"(" = c!"(" then
        match pOr k r with
        | some (a, .sym c :: r') => if c = c!")" then some (a, r') else none
        | _ => none
      else none := fun r => rfl
    rw [this, hnr, hor]; rfl
  have hu : pUnary (k + 2) (symOpen :: (sepBy symAnd v ++ (symClose :: rest))) = none := hp
  have hr : pRem (k + 3) (symOpen :: (sepBy symAnd v ++ (symClose :: rest))) = none := by
    have : ∀ ts, pRem (k + 3) ts = match pUnary (k + 2) ts with
      | none => none
      | some (a, r) => pRemTail (k + 2) a r := fun _ => rfl
    rw [this, hu]
  have e0 : symOpen :: sepBy symAnd v ++ [symClose] ++ rest = symOpen :: (sepBy symAnd v ++ (symClose :: rest)) := by simp
  have : ∀ ts, pRem (k + 3) ts = none → pCmp (k + 4) ts = none := by
    intro ts hts
    have : pCmp (k + 4) ts = match pRem (k + 3) ts with
      | none => none
      | some (a, []) => some (a, [])
      | some (a, t :: r) =>
        match cmpOf t with
        | none => some (a, t :: r)
        | some op =>
          match pRem (k + 3) r with
          | none => none
          | some (b, r') => some (.cmp op a b, r') := rfl
    rw [this, hts]
  rw [e0]
  exact this _ hr

theorem orTail_bad (l : List (List Tok × RExpr)) (h : ∀ p ∈ l, IsAnd p.1 p.2) (bad : List Tok)
    (n : Nat) (hb : ∀ k, n ≤ k → pAnd k bad = none) (a : RExpr) (k : Nat)
    (hk : 10 * (seps symOr (l.map (·.1))).length + 12 + n ≤ k) :
    pOrTail k a (seps symOr (l.map (·.1)) ++ symOr :: bad) = none := by
  induction l generalizing a k with
  | nil =>
    obtain ⟨k, rfl⟩ : ∃ j, k = j + 1 := ⟨k - 1, by omega⟩
    have e2 : ∀ r, pOrTail (k + 1) a (symOr :: r) = match pAnd k r with
      | none => none
      | some (b, r') => pOrTail k (.or a b) r' := fun r => rfl
    simp only [seps, List.map_nil, List.flatten_nil, List.nil_append, e2, hb k (by omega)]
  | cons p l ih =>
    obtain ⟨k, rfl⟩ : ∃ j, k = j + 1 := ⟨k - 1, by omega⟩
    have e : seps symOr ((p :: l).map (·.1)) ++ symOr :: bad =
        symOr :: (p.1 ++ (seps symOr (l.map (·.1)) ++ symOr :: bad)) := by
      simp [seps]
    have hl : (seps symOr ((p :: l).map (·.1))).length = 1 + p.1.length + (seps symOr (l.map (·.1))).length := by
      simp [seps]; omega
    rw [hl] at hk
    rw [e]
    have e2 : ∀ r, pOrTail (k + 1) a (symOr :: r) = match pAnd k r with
      | none => none
      | some (b, r') => pOrTail k (.or a b) r' := fun r => rfl
    have hst : Stops (seps symOr (l.map (·.1)) ++ symOr :: bad) ∧
        (seps symOr (l.map (·.1)) ++ symOr :: bad).head? ≠ some symAnd := by
      cases l with
      | nil => exact ⟨by simpa [seps] using stops_or _, by simp [seps]; decide⟩
      | cons q l => exact ⟨by simpa [seps] using stops_or _, by simp [seps]; decide⟩
    rw [e2, h p (by simp) k _ (by omega) hst.1 hst.2]
    exact ih (fun p hp => h p (by simp [hp])) _ _ (by omega)

/-- The code of a condition with an empty list is not an expression. -/
theorem parse_bad (c : Condition) (ts : List Tok) (h : genPr c = some ts) (hf : ¬ Full c) : parseExpr ts = none := by
  by_cases hc : c = []
  · subst hc
    simp only [genPr, createCondition, mapPanic, Option.map_some, Option.some.injEq] at h
    subst h; rfl
  simp only [genPr, createCondition, Option.map_eq_some_iff] at h
  obtain ⟨v, hv, rfl⟩ := h
  have hbad : ∃ a ∈ c, a = [] ∨ ∃ r ∈ a, Empty r := by
    by_contra hcon
    refine hf ⟨hc, fun a ha => ⟨fun h => hcon ⟨a, ha, .inl h⟩, fun r hr hw hn => hcon ⟨a, ha, .inr ⟨r, hr, hw, hn⟩⟩⟩⟩
  have key : ∀ (c : Condition) (v : List (List Tok)), List.Forall₂ (fun r b => createAndCondition r = some b) c v →
      (∃ a ∈ c, a = [] ∨ ∃ r ∈ a, Empty r) → ∃ (l : Tests) (bad : List Tok) (n : Nat), (∀ p ∈ l, IsAnd p.1 p.2) ∧
        (∀ k, n ≤ k → pAnd k bad = none) ∧
        sepBy symOr v = (match l with | [] => [] | _ => sepBy symOr (l.map (·.1)) ++ [symOr]) ++ bad ∧
        n ≤ 10 * bad.length + 11 := by
    intro c v hf
    induction hf with
    | nil => simp
    | @cons a b c v h1 hv ih =>
      intro he
      by_cases ha : a = [] ∨ ∃ r ∈ a, Empty r
      · refine ⟨[], sepBy symOr (b :: v), 10 * b.length + 11, by simp, ?_, rfl, ?_⟩
        · intro k hk
          obtain ⟨k, rfl⟩ : ∃ j, k = j + 1 := ⟨k - 1, by omega⟩
          have e2 : ∀ r, pAnd (k + 1) r = match pCmp k r with
              | none => none
              | some (a, r) => pAndTail k a r := fun r => rfl
          rw [e2, sepBy_cons, and_bad a b h1 ha k (by omega)]
        · rw [sepBy_cons]; simp only [List.length_append]; omega
      · have he' : ∃ a ∈ c, a = [] ∨ ∃ r ∈ a, Empty r := by
          obtain ⟨r', hr', he'⟩ := he
          rcases List.mem_cons.1 hr' with rfl | hr'
          · exact absurd he' ha
          · exact ⟨r', hr', he'⟩
        obtain ⟨l, bad, n, g1, g2, g3, g4⟩ := ih he'
        obtain ⟨e, f1, f2, f3⟩ := and_tokens a b h1 (fun h => ha (.inl h)) (fun r hr hw hn => ha (.inr ⟨r, hr, hw, hn⟩))
        have hv' : v ≠ [] := by
          rintro rfl
          obtain ⟨r', hr', -⟩ := he'
          cases hv
          simp at hr'
        refine ⟨(b, e) :: l, bad, n, ?_, g2, ?_, g4⟩
        · intro p hp
          rcases List.mem_cons.1 hp with rfl | hp
          · exact f2.isAnd
          · exact g1 p hp
        · have hb : sepBy symOr (b :: v) = b ++ symOr :: sepBy symOr v := by
            cases v with
            | nil => contradiction
            | cons x v => rfl
          rw [hb, g3]
          cases l with
          | nil => simp [sepBy]
          | cons q l => simp [sepBy_cons, seps]
  obtain ⟨l, bad, n, g1, g2, g3, g4⟩ := key c v (mapPanic_some hv) hbad
  have hnone : pOr (fuelFor (sepBy symOr v)) (sepBy symOr v) = none := by
    unfold fuelFor
    rw [g3]
    cases l with
    | nil =>
      simp only [List.nil_append]
      have : ∀ k ts, pOr (k + 1) ts = match pAnd k ts with
        | none => none
        | some (a, r) => pOrTail k a r := fun _ _ => rfl
      have e : 10 * bad.length + 20 = (10 * bad.length + 19) + 1 := rfl
      rw [e, this, g2 _ (by omega)]
    | cons p l =>
      simp only [List.map_cons, sepBy_cons, List.length_append, List.append_assoc, List.length_cons, List.length_nil]
      obtain ⟨k, hk⟩ : ∃ k, 10 * (p.1.length + ((seps symOr (l.map (·.1))).length + (0 + 1 + bad.length))) + 20 = k + 1 :=
        ⟨_, rfl⟩
      rw [hk]
      have e2 : ∀ r, pOr (k + 1) r = match pAnd k r with
        | none => none
        | some (a, r) => pOrTail k a r := fun r => rfl
      have hst : Stops (seps symOr (l.map (·.1)) ++ ([symOr] ++ bad)) ∧
          (seps symOr (l.map (·.1)) ++ ([symOr] ++ bad)).head? ≠ some symAnd := by
        cases l with
        | nil => exact ⟨by simpa [seps] using stops_or _, by simp [seps]; decide⟩
        | cons q l => exact ⟨by simpa [seps] using stops_or _, by simp [seps]; decide⟩
      rw [e2, g1 p (by simp) k _ (by omega) hst.1 hst.2]
      exact orTail_bad l (fun q hq => g1 q (by simp [hq])) bad n g2 _ _ (by omega)
  simp [parseExpr, hnone]

end Verif.Prec
