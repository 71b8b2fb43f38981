import Verif.UtsSyntax
import Verif.Lemmas.Parser

/-!
# Lemmas: the published syntax has one reading, and how it is related to the texts that the parser reads
-/

namespace Verif.UtsSyntax
open Verif Spec Uts35 Grammar Nom Strings

/-- No white space. -/
def Tight (s : Str) : Prop := s = []

/-! ## Without white space -/

theorem strip_append (s t : Str) : strip (s ++ t) = strip s ++ strip t := by simp [strip]

theorem strip_white {a : Str} (h : White a) : strip a = [] := by
  simp only [strip, List.filter_eq_nil_iff]
  intro c hc
  simp [h c hc]

theorem strip_digits (l : List (Fin 10)) : strip (digitText l) = digitText l := by
  simp only [strip, List.filter_eq_self, digitText, List.mem_map]
  rintro c ⟨d, -, rfl⟩
  clear l
  revert d; decide

theorem strip_letter (o : Operand) : strip [operandLetter o] = [operandLetter o] := by cases o <;> decide

theorem Token.strip {w s : Str} (hw : strip w = w) (h : Token White w s) : Token Tight w (strip s) := by
  obtain ⟨a, ha, rfl⟩ := h
  exact ⟨[], rfl, by rw [strip_append, hw, strip_white ha]⟩

theorem sepText_map {α : Type} {Sep Sep' : Str → Prop} {E L E' L' : Str → α → Prop} (f : Str → Str)
    (hf : ∀ s t, f (s ++ t) = f s ++ f t) (hS : ∀ m, Sep m → Sep' (f m)) (hE : ∀ s a, E s a → E' (f s) a)
    (hL : ∀ s a, L s a → L' (f s) a) {t : Str} {l : List α} (h : SepText Sep E L t l) : SepText Sep' E' L' (f t) l := by
  induction h with
  | last h => exact .last (hL _ _ h)
  | cons h1 h2 _ ih => rw [hf, hf]; exact .cons (hE _ _ h1) (hS _ h2) ih

theorem Value.strip {s : Str} {k : Nat} (h : Value White s k) : Value Tight (strip s) k := by
  obtain ⟨l, hl, ht, rfl⟩ := h
  exact ⟨l, hl, ht.strip (strip_digits l), rfl⟩

theorem Item.strip {s : Str} {x : RangeListItem} (h : Item White s x) : Item Tight (strip s) x := by
  cases h with
  | value h => exact .value h.strip
  | range h1 h2 h3 => rw [strip_append, strip_append]; exact .range h1.strip (h2.strip (by decide)) h3.strip

theorem RangeList.strip {s : Str} {l : List RangeListItem} (h : RangeList White s l) : RangeList Tight (strip s) l :=
  sepText_map _ strip_append (fun _ h => h.strip (by decide)) (fun _ _ h => h.strip) (fun _ _ h => h.strip) h

theorem Expr.strip {s : Str} {e : Expression} (h : Expr White s e) : Expr Tight (strip s) e := by
  cases h with
  | plain h => exact .plain (h.strip (strip_letter _))
  | modulo h1 h2 h3 =>
    rw [strip_append, strip_append]
    exact .modulo (h1.strip (strip_letter _)) (h2.imp (·.strip (by decide)) (·.strip (by decide))) h3.strip

theorem IsOp.strip {s : Str} {o : Operator} (h : IsOp White s o) : IsOp Tight (strip s) o := by
  cases h with
  | is h => exact .is (h.strip (by decide))
  | isNot h h' => rw [strip_append]; exact .isNot (h.strip (by decide)) (h'.strip (by decide))

theorem ListOp.strip {s : Str} {o : Operator} (h : ListOp White s o) : ListOp Tight (strip s) o := by
  cases h with
  | eq h => exact .eq (h.strip (by decide))
  | ne h => exact .ne (h.strip (by decide))
  | «in» h => exact .in (h.strip (by decide))
  | notIn h h' => rw [strip_append]; exact .notIn (h.strip (by decide)) (h'.strip (by decide))
  | within h => exact .within (h.strip (by decide))
  | notWithin h h' => rw [strip_append]; exact .notWithin (h.strip (by decide)) (h'.strip (by decide))

theorem Rel.strip {s : Str} {r : Relation} (h : Rel White s r) : Rel Tight (strip s) r := by
  cases h with
  | is h1 h2 h3 => rw [strip_append, strip_append]; exact .is h1.strip h2.strip h3.strip
  | list h1 h2 h3 => rw [strip_append, strip_append]; exact .list h1.strip h2.strip (RangeList.strip h3)

theorem AndCond.strip {s : Str} {l : AndCondition} (h : AndCond White s l) : AndCond Tight (strip s) l :=
  sepText_map _ strip_append (fun _ h => h.strip (by decide)) (fun _ _ h => h.strip) (fun _ _ h => h.strip) h

theorem Cond.strip {s : Str} {l : Condition} (h : Cond White s l) : Cond Tight (strip s) l :=
  sepText_map _ strip_append (fun _ h => h.strip (by decide)) (fun _ _ h => AndCond.strip h) (fun _ _ h => AndCond.strip h) h

theorem Decimal.strip {s : Str} {x : DecimalValue} (h : Decimal White s x) : Decimal Tight (strip s) x := by
  cases h with
  | int h => exact .int h.strip
  | dec h1 h2 =>
    rw [strip_append, strip_append, strip_digits, show UtsSyntax.strip c!"." = c!"." by decide]
    exact .dec h1 h2.strip

theorem SRange.strip {s : Str} {x : SampleRange} (h : SRange White s x) : SRange Tight (strip s) x := by
  cases h with
  | one h => exact .one h.strip
  | two h1 h2 h3 => rw [strip_append, strip_append]; exact .two h1.strip (h2.strip (by decide)) h3.strip

theorem SRanges.strip {s : Str} {l : List SampleRange} (h : SRanges White s l) : SRanges Tight (strip s) l :=
  sepText_map _ strip_append (fun _ h => h.strip (by decide)) (fun _ _ h => h.strip) (fun _ _ h => h.strip) h

theorem SList.strip {s : Str} {x : SampleList} (h : SList White s x) : SList Tight (strip s) x := by
  cases h with
  | plain h => exact .plain (SRanges.strip h)
  | more h1 h2 h3 =>
    rw [strip_append, strip_append]
    exact .more (SRanges.strip h1) (h2.strip (by decide)) (h3.imp (·.strip (by decide)) (·.strip (by decide)))

theorem SamplesPart.strip {s : Str} {x : Option Samples} (h : SamplesPart White s x) : SamplesPart Tight (strip s) x := by
  cases h with
  | none => exact .none
  | int h1 h2 => rw [strip_append]; exact .int (h1.strip (by decide)) h2.strip
  | dec h1 h2 => rw [strip_append]; exact .dec (h1.strip (by decide)) h2.strip
  | both h1 h2 h3 h4 =>
    rw [strip_append, strip_append, strip_append]
    exact .both (h1.strip (by decide)) h2.strip (h3.strip (by decide)) h4.strip

theorem RuleOf.strip {s : Str} {r : Rule} (h : RuleOf White s r) : RuleOf Tight (strip s) r := by
  cases h with
  | cond h1 h2 h3 =>
    rw [strip_append, strip_append, strip_white h1]; exact .cond rfl (Cond.strip h2) h3.strip
  | other h1 h2 => rw [strip_append, strip_white h1]; exact .other rfl h2.strip

/-! ## With a bound on the numbers -/

theorem token_tight {w s : Str} (h : Token Tight w s) : s = w := by
  obtain ⟨a, rfl, rfl⟩ := h; simp

/-- From some number of bits on. -/
def Eventually (P : Nat → Prop) : Prop := ∃ B, ∀ bits, B ≤ bits → P bits

theorem Eventually.and {P Q : Nat → Prop} (h : Eventually P) (h' : Eventually Q) : Eventually fun b => P b ∧ Q b := by
  obtain ⟨B, h⟩ := h
  obtain ⟨C, h'⟩ := h'
  exact ⟨max B C, fun b hb => ⟨h b (le_trans (le_max_left _ _) hb), h' b (le_trans (le_max_right _ _) hb)⟩⟩

theorem Eventually.imp {P Q : Nat → Prop} (f : ∀ b, P b → Q b) (h : Eventually P) : Eventually Q := by
  obtain ⟨B, h⟩ := h
  exact ⟨B, fun b hb => f b (h b hb)⟩

theorem Eventually.get {P : Nat → Prop} (h : Eventually P) : ∃ b, P b := by
  obtain ⟨B, h⟩ := h
  exact ⟨B, h B le_rfl⟩

theorem sepText_eventually {α : Type} {Sep Sep' : Str → Prop} {E L : Str → α → Prop} {E' L' : Nat → Str → α → Prop}
    (hS : ∀ m, Sep m → Sep' m) (hE : ∀ s a, E s a → Eventually fun b => E' b s a)
    (hL : ∀ s a, L s a → Eventually fun b => L' b s a) {t : Str} {l : List α} (h : SepText Sep E L t l) :
    Eventually fun b => SepText Sep' (E' b) (L' b) t l := by
  induction h with
  | last h => exact (hL _ _ h).imp fun b h => .last h
  | cons h1 h2 _ ih => exact ((hE _ _ h1).and ih).imp fun b h => .cons h.1 (hS _ h2) h.2

theorem Value.bounded {s : Str} {k : Nat} (h : Value Tight s k) : Eventually fun b => ValueText b s k := by
  obtain ⟨l, hl, ht, rfl⟩ := h
  refine ⟨digitsNum l, fun b hb => ⟨l, hl, token_tight ht, rfl, lt_of_le_of_lt hb Nat.lt_two_pow_self⟩⟩

theorem Item.bounded {s : Str} {x : RangeListItem} (h : Item Tight s x) : Eventually fun b => ItemText b s x := by
  cases h with
  | value h => exact h.bounded.imp fun b h => .value h
  | range h1 h2 h3 => rw [token_tight h2]; exact (h1.bounded.and h3.bounded).imp fun b h => .range h.1 h.2

theorem comma_mark {w m : Str} (h : Token Tight w m) : Mark w m :=
  ⟨[], [], by simp [Spaces], by simp [Spaces], by simp [token_tight h]⟩

theorem RangeList.bounded {s : Str} {l : List RangeListItem} (h : RangeList Tight s l) : Eventually fun b => ListText b s l :=
  sepText_eventually (fun _ h => comma_mark h) (fun _ _ h => h.bounded) (fun _ _ h => h.bounded) h

theorem Decimal.bounded {s : Str} {x : DecimalValue} (h : Decimal Tight s x) : Eventually fun b => DecimalText b s x := by
  cases h with
  | int h => exact h.bounded.imp fun b h => .int h
  | @dec l t b h1 h2 =>
    have : Value Tight (digitText l) (digitsNum l) := ⟨l, h1, ⟨[], rfl, by simp⟩, rfl⟩
    exact (this.bounded.and h2.bounded).imp fun b h => .dec h.1 h.2

theorem SRange.bounded {s : Str} {x : SampleRange} (h : SRange Tight s x) : Eventually fun b => SampleRangeText b s x := by
  cases h with
  | one h => exact h.bounded.imp fun b h => .one h
  | two h1 h2 h3 => exact (h1.bounded.and h3.bounded).imp fun b h => .two h.1 (comma_mark h2) h.2

theorem SRanges.bounded {s : Str} {l : List SampleRange} (h : SRanges Tight s l) :
    Eventually fun b => SepText (Mark c!",") (SampleRangeText b) (SampleRangeText b) s l :=
  sepText_eventually (fun _ h => comma_mark h) (fun _ _ h => h.bounded) (fun _ _ h => h.bounded) h

theorem SList.bounded {s : Str} {x : SampleList} (h : SList Tight s x) : Eventually fun b => SampleListText b s x := by
  cases h with
  | plain h => exact (SRanges.bounded h).imp fun b h => .plain h
  | more h1 h2 h3 =>
    exact (SRanges.bounded h1).imp fun b h => .more h (comma_mark h2) (h3.elim (fun h => .inr (token_tight h)) fun h => .inl (token_tight h))

/-! ## A parser for texts without white space -/

section reader
variable (bits : Nat)

def rExpr : P Expression :=
  map (pair Verif.Parser.operand (opt (preceded (alt (tag c!"mod") (tag c!"%")) (Verif.Parser.value bits)))) fun x => ⟨x.1, x.2⟩

def rOp : P Operator :=
  alt (map (tag c!"=") fun _ => .EQ) <|
  alt (map (tag c!"!=") fun _ => .NotEQ) <|
  alt (map (tag c!"isnot") fun _ => .IsNot) <|
  alt (map (tag c!"is") fun _ => .Is) <|
  alt (map (tag c!"in") fun _ => .In) <|
  alt (map (tag c!"notin") fun _ => .NotIn) <|
  alt (map (tag c!"notwithin") fun _ => .NotWithin) <|
  map (tag c!"within") fun _ => .Within

def rRel : P Relation :=
  map (pair (rExpr bits) (pair rOp (Verif.Parser.rangeList bits))) fun x => ⟨x.1, x.2.1, x.2.2⟩

def rAnd : P AndCondition := separatedNonemptyList (tag c!"and") (rRel bits)

def rCond : P Condition := separatedNonemptyList (tag c!"or") (rAnd bits)

def rSamples : P (Option Samples) :=
  map (pair (opt (preceded (tag c!"@integer") (Verif.Parser.sampleList bits))) (opt (preceded (tag c!"@decimal") (Verif.Parser.sampleList bits))))
    fun x => if x.1.isSome || x.2.isSome then some ⟨x.1, x.2⟩ else none

def rRule : P Rule := fun i =>
  match i with
  | [] => some ([], ⟨[], none⟩)
  | c :: _ =>
    if c = '@' then map (rSamples bits) (fun x => ⟨[], x⟩) i
    else map (pair (rCond bits) (rSamples bits)) (fun x => ⟨x.1, x.2⟩) i

end reader

/-- The text of an operator, without white space. -/
def opWord : Operator → Str
  | .EQ => c!"=" | .NotEQ => c!"!=" | .Is => c!"is" | .IsNot => c!"isnot" | .In => c!"in" | .NotIn => c!"notin"
  | .Within => c!"within" | .NotWithin => c!"notwithin"

theorem IsOp.word {s : Str} {o : Operator} (h : IsOp Tight s o) : s = opWord o := by
  cases h with
  | is h => exact token_tight h
  | isNot h h' => rw [token_tight h, token_tight h']; rfl

theorem ListOp.word {s : Str} {o : Operator} (h : ListOp Tight s o) : s = opWord o := by
  cases h with
  | eq h => exact token_tight h
  | ne h => exact token_tight h
  | «in» h => exact token_tight h
  | notIn h h' => rw [token_tight h, token_tight h']; rfl
  | within h => exact token_tight h
  | notWithin h h' => rw [token_tight h, token_tight h']; rfl

theorem rOp_complete (o : Operator) {r : Str} (hn : NoHead (· == 'n') r) : rOp (opWord o ++ r) = some (r, o) := by
  cases o with
  | Is =>
    have h : tag c!"isnot" (c!"is" ++ r) = none := tag_none (by
      intro r' hr'
      have hr' : r = c!"not" ++ r' := by simpa using hr'
      have := hn 'n' _ hr'
      simp at this)
    show rOp (c!"is" ++ r) = _
    unfold rOp
    rw [alt_right (map_none.2 rfl), alt_right (map_none.2 rfl), alt_right (map_none.2 h)]
    exact alt_left (map_of (tag_of c!"is" _))
  | _ => rfl

theorem opWord_head (o : Operator) (r : Str) : NoHead isDigit (opWord o ++ r) ∧ NoHead (· == 'm') (opWord o ++ r) ∧
    NoHead (· == '%') (opWord o ++ r) := by
  cases o <;> exact ⟨noHead_cons.2 (by decide), noHead_cons.2 (by decide), noHead_cons.2 (by decide)⟩

theorem rExpr_complete {s : Str} {e : Expression} (h : Expr Tight s e) :
    Eventually fun b => ∀ o r, rExpr b (s ++ (opWord o ++ r)) = some (opWord o ++ r, e) := by
  cases h with
  | @plain o s h =>
    refine ⟨0, fun b _ p r => ?_⟩
    obtain ⟨-, h2, h3⟩ := opWord_head p r
    rw [token_tight h, List.singleton_append]
    refine map_of (pair_of (Verif.Parser.operandLetter_operand o _) (opt_none (preceded_none_left ?_)))
    rw [alt_right (tag_head h2), tag_head h3]
  | @modulo o s m t k h1 h2 h3 =>
    refine h3.bounded.imp fun b hk p r => ?_
    obtain ⟨hd, -, -⟩ := opWord_head p r
    rw [token_tight h1]
    have e : [operandLetter o] ++ (m ++ t) ++ (opWord p ++ r) = operandLetter o :: (m ++ (t ++ (opWord p ++ r))) := by simp
    rw [e]
    refine map_of (pair_of (Verif.Parser.operandLetter_operand o _) (opt_of (preceded_of (a := m) ?_ (Verif.Parser.value_complete hk hd))))
    rcases h2 with h2 | h2
    · rw [token_tight h2]; exact alt_left (tag_of _ _)
    · rw [token_tight h2]; rfl

/-- What a list of numbers cannot be followed by. -/
def ListEnd (r : Str) : Prop := NoHead (fun c => isDigit c || c == '.' || c == ',' || Nom.isSpace c) r

theorem ListEnd.point {r : Str} (h : ListEnd r) : NoHead Verif.Parser.digitOrPoint r :=
  Verif.Parser.noHead_mono (fun c hc => by
    simp only [Verif.Parser.digitOrPoint, Bool.or_eq_true] at hc
    simp only [Bool.or_eq_true]; tauto) h

theorem noNext_noHead {p : Char → Bool} {r : Str} (hs : NoHead Nom.isSpace r) (h : NoHead p r) : Verif.Parser.NoNext p r := by
  have := Verif.Parser.noNext_spaces (sp := []) (by simp [Spaces]) hs h
  simpa using this

theorem ListEnd.space {r : Str} (h : ListEnd r) : NoHead Nom.isSpace r :=
  Verif.Parser.noHead_mono (fun c hc => by simp [hc]) h

theorem ListEnd.comma {r : Str} (h : ListEnd r) : Verif.Parser.NoNext (· == ',') r :=
  noNext_noHead h.space (Verif.Parser.noHead_mono (fun c hc => by simp only [beq_iff_eq] at hc; simp [hc]) h)

/-- A relation where `is` may have a list. -/
inductive LRel (W : Str → Prop) : Str → Relation → Prop
  | mk {s o t : Str} {e : Expression} {op : Operator} {l : List RangeListItem} : Expr W s e → IsOp W o op ∨ ListOp W o op →
      RangeList W t l → LRel W (s ++ (o ++ t)) ⟨e, op, l⟩

theorem Rel.loose {W : Str → Prop} {s : Str} {x : Relation} (h : Rel W s x) : LRel W s x := by
  cases h with
  | is h1 h2 h3 => exact .mk h1 (.inl h2) (.last (.value h3))
  | list h1 h2 h3 => exact .mk h1 (.inr h2) h3

theorem LRel.strip {s : Str} {x : Relation} (h : LRel White s x) : LRel Tight (strip s) x := by
  obtain ⟨h1, h2, h3⟩ := h
  rw [strip_append, strip_append]
  exact .mk h1.strip (h2.imp IsOp.strip ListOp.strip) (RangeList.strip h3)

/-- The same for conditions. -/
def LAnd (W : Str → Prop) : Str → AndCondition → Prop := SepText (Token W c!"and") (LRel W) (LRel W)

def LCond (W : Str → Prop) : Str → Condition → Prop := SepText (Token W c!"or") (LAnd W) (LAnd W)

theorem AndCond.loose {W : Str → Prop} {s : Str} {x : AndCondition} (h : AndCond W s x) : LAnd W s x :=
  sepText_map id (fun _ _ => rfl) (fun _ h => h) (fun _ _ h => h.loose) (fun _ _ h => h.loose) h

theorem Cond.loose {W : Str → Prop} {s : Str} {x : Condition} (h : Cond W s x) : LCond W s x :=
  sepText_map id (fun _ _ => rfl) (fun _ h => h) (fun _ _ h => AndCond.loose h) (fun _ _ h => AndCond.loose h) h

theorem LAnd.strip {s : Str} {x : AndCondition} (h : LAnd White s x) : LAnd Tight (strip s) x :=
  sepText_map UtsSyntax.strip strip_append (fun _ h => h.strip (by decide)) (fun _ _ h => h.strip) (fun _ _ h => h.strip) h

theorem LCond.strip {s : Str} {x : Condition} (h : LCond White s x) : LCond Tight (strip s) x :=
  sepText_map UtsSyntax.strip strip_append (fun _ h => h.strip (by decide)) (fun _ _ h => LAnd.strip h) (fun _ _ h => LAnd.strip h) h

theorem rRel_complete {s : Str} {x : Relation} (h : LRel Tight s x) :
    Eventually fun b => (∃ o t, s = operandLetter o :: t) ∧ ∀ r, ListEnd r → rRel b (s ++ r) = some (r, x) := by
  have key : ∀ {s t : Str} {e : Expression} {op : Operator} {l : List RangeListItem}, Expr Tight s e → (Eventually fun b => ListText b t l) →
      Eventually fun b => (∃ o t', s ++ (opWord op ++ t) = operandLetter o :: t') ∧
        ∀ r, ListEnd r → rRel b (s ++ (opWord op ++ t) ++ r) = some (r, ⟨e, op, l⟩) := by
    intro s t e op l he hl
    refine ((rExpr_complete he).and hl).imp fun b h => ⟨?_, fun r hr => ?_⟩
    · cases he with
      | plain h' => rw [token_tight h']; exact ⟨_, _, rfl⟩
      | modulo h' _ _ => rw [token_tight h']; exact ⟨_, _, rfl⟩
    · obtain ⟨h1, h2⟩ := h
      have e2 : s ++ (opWord op ++ t) ++ r = s ++ (opWord op ++ (t ++ r)) := by simp
      rw [e2]
      have hn : NoHead (· == 'n') (t ++ r) := by
        obtain ⟨c, u, rfl, hc⟩ := ListText.head h2
        exact noHead_cons.2 (Verif.Parser.digit_ne_n hc)
      exact map_of (pair_of (h1 op (t ++ r)) (pair_of (rOp_complete op hn) (Verif.Parser.list_complete h2 hr.point hr.comma)))
  obtain ⟨h1, h2, h3⟩ := h
  rw [h2.elim IsOp.word ListOp.word]
  exact key h1 (RangeList.bounded h3)

/-- A relation without white space that the reader reads. -/
def RRel (b : Nat) (s : Str) (x : Relation) : Prop :=
  (∃ o t, s = operandLetter o :: t) ∧ ∀ r, ListEnd r → rRel b (s ++ r) = some (r, x)

theorem letter_listEnd (o : Operand) (t : Str) : NoHead Nom.isSpace (operandLetter o :: t) :=
  noHead_cons.2 (Verif.Parser.letter_noSpace o)

theorem rAnd_complete {s : Str} {x : AndCondition} (h : LAnd Tight s x) :
    Eventually fun b => (∃ o t, s = operandLetter o :: t) ∧ ∀ r, ListEnd r → NoHead (· == 'a') r → rAnd b (s ++ r) = some (r, x) := by
  have h' : Eventually fun b => SepText (· = c!"and") (RRel b) (RRel b) s x :=
    sepText_eventually (fun m h => token_tight h) (fun s a h => rRel_complete h) (fun s a h => rRel_complete h) h
  refine h'.imp fun b h => ⟨?_, fun r hr ha => ?_⟩
  · obtain ⟨s, a, r, rfl, hs⟩ := SepText.head h
    obtain ⟨o, t, rfl⟩ := (or_self_iff.1 hs).1
    exact ⟨o, _, rfl⟩
  · refine (separatedNonemptyList_complete (Fol := ListEnd) (fun s a r h hr => h.2 r hr) (fun s a h => h.2 r hr) ?_ ?_ ?_ ?_ ?_
      (.inl (tag_head ha)) h).1
    · rintro s a ⟨⟨o, t, h⟩, -⟩ rfl; cases h
    · rintro s a ⟨⟨o, t, h⟩, -⟩ rfl; cases h
    · rintro m s a r rfl -; exact ⟨_, tag_of _ _⟩
    · rintro m rfl; simp
    · rintro m s a r rfl -; exact noHead_cons.2 (by decide)

def RAnd (b : Nat) (s : Str) (x : AndCondition) : Prop :=
  (∃ o t, s = operandLetter o :: t) ∧ ∀ r, ListEnd r → NoHead (· == 'a') r → rAnd b (s ++ r) = some (r, x)

theorem rCond_complete {s : Str} {x : Condition} (h : LCond Tight s x) :
    Eventually fun b => (∃ o t, s = operandLetter o :: t) ∧
      ∀ r, ListEnd r → NoHead (· == 'a') r → NoHead (· == 'o') r → rCond b (s ++ r) = some (r, x) := by
  have h' : Eventually fun b => SepText (· = c!"or") (RAnd b) (RAnd b) s x :=
    sepText_eventually (fun m h => token_tight h) (fun s a h => rAnd_complete h) (fun s a h => rAnd_complete h) h
  refine h'.imp fun b h => ⟨?_, fun r hr ha ho => ?_⟩
  · obtain ⟨s, a, r, rfl, hs⟩ := SepText.head h
    obtain ⟨o, t, rfl⟩ := (or_self_iff.1 hs).1
    exact ⟨o, _, rfl⟩
  · refine (separatedNonemptyList_complete (Fol := fun r => ListEnd r ∧ NoHead (· == 'a') r) (fun s a r h hr => h.2 r hr.1 hr.2)
      (fun s a h => h.2 r hr ha) ?_ ?_ ?_ ?_ ?_ (.inl (tag_head ho)) h).1
    · rintro s a ⟨⟨o, t, h⟩, -⟩ rfl; cases h
    · rintro s a ⟨⟨o, t, h⟩, -⟩ rfl; cases h
    · rintro m s a r rfl -; exact ⟨_, tag_of _ _⟩
    · rintro m rfl; simp
    · rintro m s a r rfl -; exact ⟨noHead_cons.2 (by decide), noHead_cons.2 (by decide)⟩

theorem rSamples_complete {s : Str} {x : Option Samples} (h : SamplesPart Tight s x) :
    Eventually fun b => (s = [] ∨ ∃ t, s = '@' :: t) ∧ rSamples b s = some ([], x) := by
  have nil : ∀ {b : Nat} {s : Str} {l : SampleList}, SampleListText b s l → Verif.Parser.sampleList b s = some ([], l) := by
    intro b s l h
    have := Verif.Parser.sampleList_complete (r := []) h (noHead_nil _) (Verif.Parser.noNext_nil _) (Verif.Parser.noNext_nil _)
    simpa using this
  cases h with
  | none => exact ⟨0, fun b _ => ⟨.inl rfl, rfl⟩⟩
  | int h1 h2 =>
    rw [token_tight h1]
    refine h2.bounded.imp fun b h => ⟨.inr ⟨_, rfl⟩, ?_⟩
    exact map_of (a := (some _, none)) (pair_of (opt_of (preceded_of (tag_of _ _) (nil h))) (by rfl))
  | dec h1 h2 =>
    rw [token_tight h1]
    refine h2.bounded.imp fun b h => ⟨.inr ⟨_, rfl⟩, ?_⟩
    exact map_of (a := (none, some _)) (pair_of (opt_none (preceded_none_left (tag_none (by intro r hr; simp at hr))))
      (opt_of (preceded_of (tag_of _ _) (nil h))))
  | both h1 h2 h3 h4 =>
    rw [token_tight h1, token_tight h3]
    refine (h2.bounded.and h4.bounded).imp fun b h => ⟨.inr ⟨_, rfl⟩, ?_⟩
    have hc : ∀ p : Char → Bool, p '@' = false → ∀ t, NoHead p (c!"@decimal" ++ t) := fun p hp t => noHead_cons.2 hp
    exact map_of (a := (some _, some _)) (pair_of (opt_of (preceded_of (tag_of _ _)
      (Verif.Parser.sampleList_complete h.1 (hc _ (by decide) _) (noNext_noHead (hc _ (by decide) _) (hc _ (by decide) _))
        (noNext_noHead (hc _ (by decide) _) (hc _ (by decide) _))))) (opt_of (preceded_of (tag_of _ _) (nil h.2))))

theorem rRule_loose {s t : Str} {c : Condition} {x : Option Samples} (h2 : LCond Tight s c) (h3 : SamplesPart Tight t x) :
    Eventually fun b => rRule b (s ++ t) = some ([], ⟨c, x⟩) := by
  refine ((rCond_complete h2).and (rSamples_complete h3)).imp fun b h => ?_
  obtain ⟨⟨⟨o, u, rfl⟩, hc⟩, ht, hs⟩ := h
  have hat : ∀ p : Char → Bool, p '@' = false → NoHead p t := by
    intro p hp
    rcases ht with rfl | ⟨t, rfl⟩
    · exact noHead_nil _
    · exact noHead_cons.2 hp
  have := hc t (hat _ (by decide)) (hat _ (by decide)) (hat _ (by decide))
  have hne : operandLetter o ≠ '@' := by cases o <;> decide
  simp only [List.cons_append, rRule, if_neg hne]
  exact map_of (pair_of this hs)

theorem rRule_complete {s : Str} {x : Rule} (h : RuleOf Tight s x) : Eventually fun b => rRule b s = some ([], x) := by
  cases h with
  | @cond a s t c x h1 h2 h3 =>
    obtain rfl := h1
    exact rRule_loose (s := s) (Cond.loose h2) h3
  | other h1 h2 =>
    obtain rfl := h1
    refine (rSamples_complete h2).imp fun b h => ?_
    obtain ⟨rfl | ⟨t, rfl⟩, hs⟩ := h
    · simp only [List.nil_append, rRule]
      generalize hz : ([] : Str) = z at h2
      cases h2 with
      | none => rfl
      | int h _ => simp [token_tight h] at hz
      | dec h _ => simp [token_tight h] at hz
      | both h _ _ _ => simp [token_tight h] at hz
    · simp only [List.nil_append, rRule, if_true]
      exact map_of hs

/-- A text has at most one reading. -/
theorem rule_unique {s : Str} {x y : Rule} (hx : UtsRule s x) (hy : UtsRule s y) : x = y := by
  obtain ⟨b, h1, h2⟩ := ((rRule_complete hx.strip).and (rRule_complete hy.strip)).get
  rw [h1] at h2
  simpa using h2

/-- White space makes no difference. -/
theorem rule_unique_strip {s t : Str} {x y : Rule} (hx : UtsRule s x) (hy : UtsRule t y) (h : strip s = strip t) : x = y := by
  obtain ⟨b, h1, h2⟩ := ((rRule_complete hx.strip).and (rRule_complete hy.strip)).get
  rw [h, h2] at h1
  simpa using h1.symm

/-! ## The texts that the parser reads -/

theorem spaces_white {a : Str} (h : Spaces a) : White a := by
  intro c hc
  rcases h c hc with rfl | rfl <;> decide

theorem white_nil : White [] := by simp [White]

theorem white_append {a b : Str} (ha : White a) (hb : White b) : White (a ++ b) := by
  intro c hc
  exact (List.mem_append.1 hc).elim (ha c) (hb c)

theorem sepText_mem {α : Type} {Sep : Str → Prop} {E L : Str → α → Prop} {t : Str} {l : List α} (h : SepText Sep E L t l) :
    SepText Sep (fun s x => E s x ∧ x ∈ l) (fun s x => L s x ∧ x ∈ l) t l := by
  have key : ∀ {l' : List α}, l ⊆ l' → SepText Sep (fun s x => E s x ∧ x ∈ l') (fun s x => L s x ∧ x ∈ l') t l := by
    induction h with
    | last h => intro l' hl; exact .last ⟨h, hl (by simp)⟩
    | cons h1 h2 _ ih => intro l' hl; exact .cons ⟨h1, hl (by simp)⟩ h2 (ih fun x hx => hl (by simp [hx]))
  exact key (fun _ h => h)

theorem sepText_join {α : Type} {Sep : Str → Prop} {E : Str → α → Prop} {s m t : Str} {l l' : List α} (h : SepText Sep E E s l)
    (hm : Sep m) (h' : SepText Sep E E t l') : SepText Sep E E (s ++ (m ++ t)) (l ++ l') := by
  induction h with
  | last h => exact .cons h hm h'
  | cons h1 h2 _ ih => rw [List.append_assoc, List.append_assoc]; exact .cons h1 h2 ih

/-- The spaces before a separator go to the element before it. -/
theorem sepText_mark {α : Type} {w : Str} {Sep : Str → Prop} {E E' : Str → α → Prop} (hS : ∀ m, Sep m → Mark w m)
    (hE : ∀ s x a, E s x → White a → E' (s ++ a) x) {t : Str} {l : List α} (h : SepText Sep E E t l) :
    ∀ a, White a → SepText (Token White w) E' E' (t ++ a) l := by
  induction h with
  | last h => intro a ha; exact .last (hE _ _ _ h ha)
  | @cons s m t x l h1 h2 _ ih =>
    intro a ha
    obtain ⟨b, c, hb, hc, rfl⟩ := hS _ h2
    have e : s ++ ((b ++ (w ++ c)) ++ t) ++ a = (s ++ b) ++ ((w ++ c) ++ (t ++ a)) := by simp
    rw [e]
    exact .cons (hE _ _ _ h1 (spaces_white hb)) ⟨c, spaces_white hc, rfl⟩ (ih a ha)

theorem word_mark {w m : Str} (h : Word w m) : Mark w m := by
  obtain ⟨a, b, ha, hb, rfl⟩ := h
  exact ⟨a, b, ha.1, hb.1, rfl⟩

section read
variable {bits : Nat}

theorem value_uts {s a : Str} {k : Nat} (h : ValueText bits s k) (ha : White a) : Value White (s ++ a) k := by
  obtain ⟨l, hl, rfl, rfl, -⟩ := h
  exact ⟨l, hl, ⟨a, ha, rfl⟩, rfl⟩

theorem item_uts {s a : Str} {x : RangeListItem} (h : ItemText bits s x) (ha : White a) : Item White (s ++ a) x := by
  cases h with
  | value h => exact .value (value_uts h ha)
  | @range s t x y h1 h2 =>
    have h1 := value_uts h1 white_nil
    rw [List.append_nil] at h1
    rw [List.append_assoc, List.append_assoc]
    exact .range h1 ⟨[], white_nil, by simp⟩ (value_uts h2 ha)

theorem list_uts {s a : Str} {l : List RangeListItem} (h : ListText bits s l) (ha : White a) : RangeList White (s ++ a) l :=
  sepText_mark (fun _ h => h) (fun _ _ _ h ha => item_uts h ha) h a ha

theorem expr_uts {s a : Str} {e : Expression} (h : ExprText bits s e) (ha : White a) : Expr White (s ++ a) e := by
  cases h with
  | plain o => exact .plain ⟨a, ha, rfl⟩
  | @modulo o b m c t k hb hm hc ht =>
    have e : operandLetter o :: (b ++ (m ++ (c ++ t))) ++ a = ([operandLetter o] ++ b) ++ ((m ++ c) ++ (t ++ a)) := by simp
    rw [e]
    refine .modulo ⟨b, spaces_white hb, rfl⟩ ?_ (value_uts ht ha)
    rcases hm with rfl | rfl
    · exact .inl ⟨c, spaces_white hc.1, rfl⟩
    · exact .inr ⟨c, spaces_white hc.1, rfl⟩

/-- `is` and `is not`. -/
def isIs (op : Operator) : Prop := op = .Is ∨ op = .IsNot

theorem op_uts {o b : Str} {op : Operator} (h : OpText o op) (hb : White b) :
    (isIs op ∧ IsOp White (o ++ b) op) ∨ (¬ isIs op ∧ ListOp White (o ++ b) op) := by
  cases h with
  | eq => exact .inr ⟨by simp [isIs], .eq ⟨b, hb, rfl⟩⟩
  | ne => exact .inr ⟨by simp [isIs], .ne ⟨b, hb, rfl⟩⟩
  | @is a ha => exact .inl ⟨by simp [isIs], .is ⟨a ++ b, white_append (spaces_white ha.1) hb, by simp⟩⟩
  | @isNot a ha =>
    refine .inl ⟨by simp [isIs], ?_⟩
    have e : (c!"is" ++ (a ++ c!"not")) ++ b = (c!"is" ++ a) ++ (c!"not" ++ b) := by simp
    rw [e]
    exact .isNot ⟨a, spaces_white ha.1, rfl⟩ ⟨b, hb, rfl⟩
  | «in» => exact .inr ⟨by simp [isIs], .in ⟨b, hb, rfl⟩⟩
  | @notIn a ha =>
    refine .inr ⟨by simp [isIs], ?_⟩
    have e : (c!"not" ++ (a ++ c!"in")) ++ b = (c!"not" ++ a) ++ (c!"in" ++ b) := by simp
    rw [e]
    exact .notIn ⟨a, spaces_white ha.1, rfl⟩ ⟨b, hb, rfl⟩
  | @notWithin a ha =>
    refine .inr ⟨by simp [isIs], ?_⟩
    have e : (c!"not" ++ (a ++ c!"within")) ++ b = (c!"not" ++ a) ++ (c!"within" ++ b) := by simp
    rw [e]
    exact .notWithin ⟨a, spaces_white ha.1, rfl⟩ ⟨b, hb, rfl⟩
  | within => exact .inr ⟨by simp [isIs], .within ⟨b, hb, rfl⟩⟩

/-- A relation with `is` has one number. -/
def IsOne (r : Relation) : Prop := isIs r.operator → ∃ k, r.rangeList = [.value k]

theorem rel_uts {s a : Str} {x : Relation} (h : RelText bits s x) (hx : IsOne x) (ha : White a) : Rel White (s ++ a) x := by
  obtain @⟨s, b, o, c, t, e, op, l, hs, hb, ho, hc, ht⟩ := h
  have e2 : s ++ (b ++ (o ++ (c ++ t))) ++ a = (s ++ b) ++ ((o ++ c) ++ (t ++ a)) := by simp
  rw [e2]
  rcases op_uts ho (spaces_white hc) with ⟨h1, h2⟩ | ⟨-, h2⟩
  · obtain ⟨k, hk⟩ := hx h1
    obtain rfl : l = [.value k] := hk
    have hv : ValueText bits t k := by
      cases ht with
      | last h => cases h with | value h => exact h
      | cons _ _ h => cases h
    exact .is (expr_uts hs (spaces_white hb)) h2 (value_uts hv ha)
  · exact .list (expr_uts hs (spaces_white hb)) h2 (list_uts ht ha)

theorem and_uts {s a : Str} {x : AndCondition} (h : AndText bits s x) (hx : ∀ r ∈ x, IsOne r) (ha : White a) :
    AndCond White (s ++ a) x :=
  sepText_mark (fun _ h => word_mark h) (fun _ _ _ h ha => rel_uts h.1 (hx _ h.2) ha) (sepText_mem h) a ha

theorem cond_uts {s a : Str} {x : Condition} (h : CondText bits s x) (hx : ∀ c ∈ x, ∀ r ∈ c, IsOne r) (ha : White a) :
    Cond White (s ++ a) x :=
  sepText_mark (fun _ h => word_mark h) (fun _ _ _ h ha => and_uts h.1 (hx _ h.2) ha) (sepText_mem h) a ha

theorem decimal_uts {s a : Str} {x : DecimalValue} (h : DecimalText bits s x) (ha : White a) : Decimal White (s ++ a) x := by
  cases h with
  | int h => exact .int (value_uts h ha)
  | @dec s t x y h1 h2 =>
    obtain ⟨l, hl, rfl, rfl, -⟩ := h1
    rw [List.append_assoc, List.append_assoc]
    exact .dec hl (value_uts h2 ha)

theorem sampleRange_uts {s a : Str} {x : SampleRange} (h : SampleRangeText bits s x) (ha : White a) : SRange White (s ++ a) x := by
  cases h with
  | one h => exact .one (decimal_uts h ha)
  | @two s m t x y h1 h2 h3 =>
    obtain ⟨b, c, hb, hc, rfl⟩ := h2
    have e : s ++ ((b ++ (c!"~" ++ c)) ++ t) ++ a = (s ++ b) ++ ((c!"~" ++ c) ++ (t ++ a)) := by simp
    rw [e]
    exact .two (decimal_uts h1 (spaces_white hb)) ⟨c, spaces_white hc, rfl⟩ (decimal_uts h3 ha)

theorem ranges_uts {s a : Str} {l : List SampleRange} (h : SepText (Mark c!",") (SampleRangeText bits) (SampleRangeText bits) s l)
    (ha : White a) : SRanges White (s ++ a) l :=
  sepText_mark (fun _ h => h) (fun _ _ _ h ha => sampleRange_uts h ha) h a ha

theorem sampleList_uts {s a : Str} {x : SampleList} (h : SampleListText bits s x) (ha : White a) : SList White (s ++ a) x := by
  cases h with
  | plain h => exact .plain (ranges_uts h ha)
  | @more s m e l h1 h2 h3 =>
    obtain ⟨b, c, hb, hc, rfl⟩ := h2
    have e2 : s ++ ((b ++ (c!"," ++ c)) ++ e) ++ a = (s ++ b) ++ ((c!"," ++ c) ++ (e ++ a)) := by simp
    rw [e2]
    refine .more (ranges_uts h1 (spaces_white hb)) ⟨c, spaces_white hc, rfl⟩ ?_
    rcases h3 with rfl | rfl
    · exact .inr ⟨a, ha, rfl⟩
    · exact .inl ⟨a, ha, rfl⟩

/-- Samples, and the spaces before them. -/
theorem samples_uts {t : Str} {x : Samples} (h : SamplesText bits t x) :
    ∃ b u, White b ∧ t = b ++ u ∧ SamplesPart White u (some x) := by
  cases h with
  | @int m s l hm hs =>
    obtain ⟨b, c, hb, hc, rfl⟩ := hm
    have := sampleList_uts hs white_nil
    rw [List.append_nil] at this
    exact ⟨b, (c!"@integer" ++ c) ++ s, spaces_white hb.1, by simp, .int ⟨c, spaces_white hc.1, rfl⟩ this⟩
  | @dec m s l hm hs =>
    obtain ⟨b, c, hb, hc, rfl⟩ := hm
    have := sampleList_uts hs white_nil
    rw [List.append_nil] at this
    exact ⟨b, (c!"@decimal" ++ c) ++ s, spaces_white hb.1, by simp, .dec ⟨c, spaces_white hc.1, rfl⟩ this⟩
  | @both m s m' s' l l' hm hs hm' hs' =>
    obtain ⟨b, c, hb, hc, rfl⟩ := hm
    obtain ⟨b', c', hb', hc', rfl⟩ := hm'
    have := sampleList_uts hs' white_nil
    rw [List.append_nil] at this
    exact ⟨b, (c!"@integer" ++ c) ++ ((s ++ b') ++ ((c!"@decimal" ++ c') ++ s')), spaces_white hb.1, by simp,
      .both ⟨c, spaces_white hc.1, rfl⟩ (sampleList_uts hs (spaces_white hb'.1)) ⟨c', spaces_white hc'.1, rfl⟩ this⟩

/-- What the parser reads, apart from its extensions, is published syntax. -/
theorem rule_uts {s : Str} {x : Rule} (h : CondText bits s x.condition ∧ x.samples = none ∨
    ∃ a t y, s = a ++ t ∧ CondText bits a x.condition ∧ SamplesText bits t y ∧ x.samples = some y)
    (hx : ∀ c ∈ x.condition, ∀ r ∈ c, IsOne r) : UtsRule s x := by
  obtain ⟨c, z⟩ := x
  rcases h with ⟨h, rfl⟩ | ⟨a, t, y, rfl, h, ht, rfl⟩
  · have := RuleOf.cond (t := []) white_nil (cond_uts h hx white_nil) .none
    simpa [UtsRule] using this
  · obtain ⟨b, u, hb, rfl, hu⟩ := samples_uts ht
    have := RuleOf.cond (t := u) white_nil (cond_uts h hx hb) hu
    simpa [UtsRule] using this

theorem rel_loose {s a : Str} {x : Relation} (h : RelText bits s x) (ha : White a) : LRel White (s ++ a) x := by
  obtain @⟨s, b, o, c, t, e, op, l, hs, hb, ho, hc, ht⟩ := h
  have e2 : s ++ (b ++ (o ++ (c ++ t))) ++ a = (s ++ b) ++ ((o ++ c) ++ (t ++ a)) := by simp
  rw [e2]
  exact .mk (expr_uts hs (spaces_white hb)) ((op_uts ho (spaces_white hc)).imp And.right And.right) (list_uts ht ha)

theorem cond_loose {s a : Str} {x : Condition} (h : CondText bits s x) (ha : White a) : LCond White (s ++ a) x :=
  sepText_mark (fun _ h => word_mark h)
    (fun _ _ _ h ha => sepText_mark (fun _ h => word_mark h) (fun _ _ _ h ha => rel_loose h ha) h _ ha) h a ha

/-- Where both the published syntax and the texts that the parser reads have a condition, it is the same, and so are the samples. -/
theorem rule_same {s : Str} {x : Rule} (hx : UtsRule s x) {c : Condition} {z : Option Samples}
    (h : (CondText bits s c ∧ z = none) ∨ ∃ a t y, s = a ++ t ∧ CondText bits a c ∧ SamplesText bits t y ∧ z = some y) :
    x = ⟨c, z⟩ := by
  have key : ∃ u v, strip s = u ++ v ∧ LCond Tight u c ∧ SamplesPart Tight v z := by
    rcases h with ⟨h, rfl⟩ | ⟨a, t, y, rfl, h, ht, rfl⟩
    · have := LCond.strip (cond_loose h white_nil)
      rw [List.append_nil] at this
      exact ⟨_, [], by simp, this, .none⟩
    · obtain ⟨b, u, hb, rfl, hu⟩ := samples_uts ht
      refine ⟨_, _, ?_, LCond.strip (cond_loose h hb), SamplesPart.strip hu⟩
      simp [strip_append]
  obtain ⟨u, v, e, h1, h2⟩ := key
  obtain ⟨b, h3, h4⟩ := ((rRule_complete hx.strip).and (rRule_loose h1 h2)).get
  rw [e, h4] at h3
  simpa using h3.symm

/-! ## The last character -/

/-- The text has a last character with the property. -/
def EndsIn (P : Char → Prop) (s : Str) : Prop := ∃ t c, s = t ++ [c] ∧ P c

theorem EndsIn.prepend {P : Char → Prop} (a : Str) {s : Str} (h : EndsIn P s) : EndsIn P (a ++ s) := by
  obtain ⟨t, c, rfl, hc⟩ := h
  exact ⟨a ++ t, c, by simp, hc⟩

theorem sepText_ends {α : Type} {Sep : Str → Prop} {E L : Str → α → Prop} {P : Char → Prop} (hL : ∀ s x, L s x → EndsIn P s)
    {t : Str} {l : List α} (h : SepText Sep E L t l) : EndsIn P t := by
  induction h with
  | last h => exact hL _ _ h
  | cons _ _ _ ih => exact (ih.prepend _).prepend _

/-- The last character of a rule: a digit or an ellipsis. -/
def RuleEnd (c : Char) : Prop := isDigit c = true ∨ c = '.' ∨ c = '…'

instance (c : Char) : Decidable (RuleEnd c) := by unfold RuleEnd; infer_instance

theorem digits_ends {l : List (Fin 10)} (hl : l ≠ []) : EndsIn RuleEnd (digitText l) := by
  obtain ⟨l, d, rfl⟩ := (List.eq_nil_or_concat' l).resolve_left hl
  refine ⟨digitText l, (digitText [d]).head (by simp [digitText]), by simp [digitText], .inl ?_⟩
  clear hl; revert d; decide

theorem Value.ends {s : Str} {k : Nat} (h : Value Tight s k) : EndsIn RuleEnd s := by
  obtain ⟨l, hl, ht, -⟩ := h
  rw [token_tight ht]
  exact digits_ends hl

theorem Item.ends {s : Str} {x : RangeListItem} (h : Item Tight s x) : EndsIn RuleEnd s := by
  cases h with
  | value h => exact h.ends
  | range _ _ h => exact (h.ends.prepend _).prepend _

theorem LCond.ends {s : Str} {x : Condition} (h : LCond Tight s x) : EndsIn RuleEnd s :=
  sepText_ends (fun _ _ h => sepText_ends (fun _ _ h => by
    obtain ⟨-, -, h3⟩ := h
    exact ((sepText_ends (fun _ _ h => h.ends) h3).prepend _).prepend _) h) h

theorem Decimal.ends {s : Str} {x : DecimalValue} (h : Decimal Tight s x) : EndsIn RuleEnd s := by
  cases h with
  | int h => exact h.ends
  | dec _ h => exact (h.ends.prepend _).prepend _

theorem SRange.ends {s : Str} {x : SampleRange} (h : SRange Tight s x) : EndsIn RuleEnd s := by
  cases h with
  | one h => exact h.ends
  | two _ _ h => exact (h.ends.prepend _).prepend _

theorem SList.ends {s : Str} {x : SampleList} (h : SList Tight s x) : EndsIn RuleEnd s := by
  cases h with
  | plain h => exact sepText_ends (fun _ _ h => h.ends) h
  | more _ _ h =>
    refine (EndsIn.prepend _ ?_).prepend _
    rcases h with h | h
    · rw [token_tight h]; exact ⟨[], '…', rfl, .inr (.inr rfl)⟩
    · rw [token_tight h]; exact ⟨c!"..", '.', rfl, .inr (.inl rfl)⟩

theorem SamplesPart.ends {s : Str} {x : Samples} (h : SamplesPart Tight s (some x)) : EndsIn RuleEnd s := by
  cases h with
  | int _ h => exact h.ends.prepend _
  | dec _ h => exact h.ends.prepend _
  | both _ _ _ h => exact ((h.ends.prepend _).prepend _).prepend _

theorem rule_ends {s : Str} {x : Rule} (h : RuleOf Tight s x) : s = [] ∨ EndsIn RuleEnd s := by
  cases h with
  | @cond a s t c x _ h2 h3 =>
    cases x with
    | none => cases h3; rw [List.append_nil]; exact .inr ((LCond.ends (Cond.loose h2)).prepend a)
    | some x => exact .inr ((SamplesPart.ends h3).prepend _ |>.prepend _)
  | @other a t x h1 h3 =>
    obtain rfl := h1
    cases x with
    | none => cases h3; exact .inl rfl
    | some x => exact .inr ((SamplesPart.ends h3).prepend _)

theorem endsIn_unique {P Q : Char → Prop} {s : Str} (h : EndsIn P s) (h' : EndsIn Q s) : ∃ c, P c ∧ Q c := by
  obtain ⟨t, c, rfl, hc⟩ := h
  obtain ⟨t', c', e, hc'⟩ := h'
  obtain ⟨-, rfl⟩ : t = t' ∧ c = c' := by simpa using List.append_inj' e rfl
  exact ⟨c, hc, hc'⟩

/-- An operator's last character, without white space. -/
theorem op_ends {o : Str} {op : Operator} (h : OpText o op) : EndsIn (fun c => ¬ RuleEnd c) (strip o) := by
  have key : strip o = opWord op := by
    rcases op_uts (b := []) h white_nil with ⟨-, h⟩ | ⟨-, h⟩
    · have := h.strip.word; simpa using this
    · have := h.strip.word; simpa using this
  rw [key]
  have : ∀ s c, s = opWord op → opWord op = s.dropLast ++ [c] → ¬ RuleEnd c → EndsIn (fun c => ¬ RuleEnd c) (opWord op) :=
    fun s c _ h hc => ⟨_, c, h, hc⟩
  cases op
  all_goals first
    | exact this _ '=' rfl rfl (by decide)
    | exact this _ 's' rfl rfl (by decide)
    | exact this _ 't' rfl rfl (by decide)
    | exact this _ 'n' rfl rfl (by decide)

theorem open_ends {s : Str} {c : Condition} (h : OpenCondText bits s c) : EndsIn (fun c => ¬ RuleEnd c) (strip s) := by
  have gen : ∀ {α : Type} {Sep : Str → Prop} {E L : Str → α → Prop} {P : Char → Prop}, (∀ s x, L s x → EndsIn P (strip s)) →
      ∀ {t : Str} {l : List α}, SepText Sep E L t l → EndsIn P (strip t) := by
    intro α Sep E L P hL t l h
    induction h with
    | last h => exact hL _ _ h
    | cons _ _ _ ih => rw [strip_append, strip_append]; exact (ih.prepend _).prepend _
  refine gen (fun s x h => gen (fun s x h => ?_) h) h
  obtain @⟨s, a, o, b, e, op, h1, h2, h3, h4⟩ := h
  rw [strip_append, strip_append, strip_append, strip_white (spaces_white h4), List.append_nil]
  exact ((op_ends h3).prepend _).prepend _

/-- A text without a list at its end is not published syntax. -/
theorem open_not_uts {s : Str} {c : Condition} {x : Rule} (h : OpenCondText bits s c) (hx : UtsRule s x) : False := by
  have h1 := open_ends h
  rcases rule_ends hx.strip with h2 | h2
  · obtain ⟨t, c, e, -⟩ := h1
    rw [h2] at e
    simp at e
  · obtain ⟨c, hc, hc'⟩ := endsIn_unique h1 h2
    exact hc hc'

/-! ## White space at the ends -/

section trailing
variable {a : Str} (ha : White a)
include ha

theorem Token.app {w s : Str} (h : Token White w s) : Token White w (s ++ a) := by
  obtain ⟨b, hb, rfl⟩ := h
  exact ⟨b ++ a, white_append hb ha, by simp⟩

omit ha in
theorem sepText_app {α : Type} {Sep : Str → Prop} {E L : Str → α → Prop} (hL : ∀ s x, L s x → L (s ++ a) x)
    {t : Str} {l : List α} (h : SepText Sep E L t l) : SepText Sep E L (t ++ a) l := by
  induction h with
  | last h => exact .last (hL _ _ h)
  | cons h1 h2 _ ih => rw [List.append_assoc, List.append_assoc]; exact .cons h1 h2 ih

theorem Value.app {s : Str} {k : Nat} (h : Value White s k) : Value White (s ++ a) k := by
  obtain ⟨l, hl, ht, rfl⟩ := h
  exact ⟨l, hl, ht.app ha, rfl⟩

theorem Item.app {s : Str} {x : RangeListItem} (h : Item White s x) : Item White (s ++ a) x := by
  cases h with
  | value h => exact .value (h.app ha)
  | range h1 h2 h3 => rw [List.append_assoc, List.append_assoc]; exact .range h1 h2 (h3.app ha)

theorem Rel.app {s : Str} {x : Relation} (h : Rel White s x) : Rel White (s ++ a) x := by
  cases h with
  | is h1 h2 h3 => rw [List.append_assoc, List.append_assoc]; exact .is h1 h2 (h3.app ha)
  | list h1 h2 h3 =>
    rw [List.append_assoc, List.append_assoc]; exact .list h1 h2 (sepText_app (fun _ _ h => h.app ha) h3)

theorem Cond.app {s : Str} {x : Condition} (h : Cond White s x) : Cond White (s ++ a) x :=
  sepText_app (fun _ _ h => sepText_app (fun _ _ h => h.app ha) h) h

theorem Decimal.app {s : Str} {x : DecimalValue} (h : Decimal White s x) : Decimal White (s ++ a) x := by
  cases h with
  | int h => exact .int (h.app ha)
  | dec h1 h2 => rw [List.append_assoc, List.append_assoc]; exact .dec h1 (h2.app ha)

theorem SRange.app {s : Str} {x : SampleRange} (h : SRange White s x) : SRange White (s ++ a) x := by
  cases h with
  | one h => exact .one (h.app ha)
  | two h1 h2 h3 => rw [List.append_assoc, List.append_assoc]; exact .two h1 h2 (h3.app ha)

theorem SList.app {s : Str} {x : SampleList} (h : SList White s x) : SList White (s ++ a) x := by
  cases h with
  | plain h => exact .plain (sepText_app (fun _ _ h => h.app ha) h)
  | more h1 h2 h3 =>
    rw [List.append_assoc, List.append_assoc]; exact .more h1 h2 (h3.imp (·.app ha) (·.app ha))

theorem SamplesPart.app {s : Str} {x : Samples} (h : SamplesPart White s (some x)) : SamplesPart White (s ++ a) (some x) := by
  generalize hy : some x = y at h
  cases h with
  | none => cases hy
  | int h1 h2 => rw [List.append_assoc]; exact .int h1 (h2.app ha)
  | dec h1 h2 => rw [List.append_assoc]; exact .dec h1 (h2.app ha)
  | both h1 h2 h3 h4 => rw [List.append_assoc, List.append_assoc, List.append_assoc]; exact .both h1 h2 h3 (h4.app ha)

theorem rule_app {s : Str} {x : Rule} (h : UtsRule s x) : UtsRule (s ++ a) x := by
  cases h with
  | @cond b s t c x h1 h2 h3 =>
    cases x with
    | none =>
      cases h3
      have := RuleOf.cond (t := []) h1 (Cond.app ha h2) .none
      simpa [UtsRule] using this
    | some x => rw [List.append_assoc, List.append_assoc]; exact .cond h1 h2 (h3.app ha)
  | @other b t x h1 h3 =>
    cases x with
    | none =>
      cases h3
      have := RuleOf.other (t := []) (white_append h1 ha) .none
      simpa [UtsRule] using this
    | some x => rw [List.append_assoc]; exact .other h1 (h3.app ha)

theorem rule_pre {s : Str} {x : Rule} (h : UtsRule s x) : UtsRule (a ++ s) x := by
  cases h with
  | cond h1 h2 h3 => rw [← List.append_assoc]; exact .cond (white_append ha h1) h2 h3
  | other h1 h2 => rw [← List.append_assoc]; exact .other (white_append ha h1) h2

end trailing

/-- The first letter of a published text with a condition comes after white space only. -/
theorem uts_head {s : Str} {x : Rule} (h : UtsRule s x) (hne : x.condition ≠ []) : ∃ a o t, White a ∧ s = a ++ operandLetter o :: t := by
  cases h with
  | other => exact absurd rfl hne
  | @cond a s t c x h1 h2 h3 =>
    obtain ⟨u, y, r, rfl, hu⟩ := SepText.head h2
    obtain ⟨v, z, r', rfl, hv⟩ := SepText.head (or_self_iff.1 hu)
    have : ∃ o t, v = operandLetter o :: t := by
      have key : ∀ {s e}, Expr White s e → ∃ o t, s = operandLetter o :: t := by
        intro s e h
        cases h with
        | plain h => obtain ⟨a, -, rfl⟩ := h; exact ⟨_, _, rfl⟩
        | modulo h _ _ => obtain ⟨a, -, rfl⟩ := h; exact ⟨_, _, rfl⟩
      cases or_self_iff.1 hv with
      | is h _ _ => obtain ⟨o, t, rfl⟩ := key h; exact ⟨_, _, rfl⟩
      | list h _ _ => obtain ⟨o, t, rfl⟩ := key h; exact ⟨_, _, rfl⟩
    obtain ⟨o, w, rfl⟩ := this
    exact ⟨a, o, _, h1, by simp; rfl⟩

theorem noCondition_not_uts {s : Str} {x : Rule} (hn : NoCondition s) (h : UtsRule s x) : x.condition = [] := by
  by_contra hne
  obtain ⟨a, o, t, ha, rfl⟩ := uts_head h hne
  obtain ⟨b, r, hb, e, hr⟩ := hn
  let p : Char → Bool := fun c => !(patternWhite c) && !(isWhitespace c)
  have h1 : (a ++ operandLetter o :: t).find? p = some (operandLetter o) := by
    rw [List.find?_append, List.find?_eq_none.2 (fun c hc => by simp [p, ha c hc])]
    rw [List.find?_cons_of_pos (by cases o <;> decide)]
    rfl
  have h2 : (b ++ r).find? p = none ∨ (b ++ r).find? p = some '@' := by
    rw [List.find?_append, List.find?_eq_none.2 (fun c hc => by simp [p, hb c hc])]
    rcases hr with rfl | ⟨u, rfl⟩
    · exact .inl rfl
    · rw [List.find?_cons_of_pos (by decide)]; exact .inr rfl
  rw [← e, h1] at h2
  rcases h2 with h2 | h2
  · cases h2
  · cases o <;> simp [operandLetter] at h2

/-- The relations of a published text. -/
theorem rule_published {s : Str} {x : Rule} (h : UtsRule s x) :
    ∀ a ∈ x.condition, ∀ r ∈ a, r.rangeList ≠ [] ∧ IsOne r := by
  have gen : ∀ {α : Type} {Sep : Str → Prop} {E : Str → α → Prop} {P : α → Prop}, (∀ s x, E s x → P x) →
      ∀ {t : Str} {l : List α}, SepText Sep E E t l → ∀ x ∈ l, P x := by
    intro α Sep E P hE t l h
    induction h with
    | last h => simpa using hE _ _ h
    | cons h _ _ ih =>
      intro x hx
      rcases List.mem_cons.1 hx with rfl | hx
      · exact hE _ _ h
      · exact ih x hx
  cases h with
  | other => simp
  | cond _ h _ =>
    refine gen (fun s x h => gen (fun s x h => ?_) h) h
    cases h with
    | is => exact ⟨by simp, fun _ => ⟨_, rfl⟩⟩
    | list _ h1 h2 =>
      refine ⟨fun e => ?_, fun hi => ?_⟩
      · simp only at e
        subst e
        cases h2
      · cases h1 <;> simp [isIs] at hi

theorem rule_head {s : Str} {x : Rule} (h : RuleText bits s x) : NoCondition s ∨ ∃ o t, s = operandLetter o :: t := by
  cases h with
  | empty h => exact .inl h
  | cond h => exact .inr (CondText.head h)
  | openCond h => exact .inr (OpenCondText.head h)
  | full h _ => obtain ⟨o, t, rfl⟩ := CondText.head h; exact .inr ⟨o, _, rfl⟩

theorem valueText_ends {s : Str} {k : Nat} (h : ValueText bits s k) : EndsIn RuleEnd s := by
  obtain ⟨l, hl, rfl, -⟩ := h
  exact digits_ends hl

theorem condText_ends {s : Str} {x : Condition} (h : CondText bits s x) : EndsIn RuleEnd s := by
  refine sepText_ends (fun _ _ h => sepText_ends (fun _ _ h => ?_) h) h
  obtain ⟨-, -, -, -, h⟩ := h
  refine EndsIn.prepend _ (EndsIn.prepend _ (EndsIn.prepend _ (EndsIn.prepend _ ?_)))
  refine sepText_ends (fun _ _ h => ?_) h
  cases h with
  | value h => exact valueText_ends h
  | range _ h => exact ((valueText_ends h).prepend _).prepend _

theorem sampleListText_ends {s : Str} {x : SampleList} (h : SampleListText bits s x) : EndsIn RuleEnd s := by
  have dec : ∀ {s x}, DecimalText bits s x → EndsIn RuleEnd s := by
    intro s x h
    cases h with
    | int h => exact valueText_ends h
    | dec _ h => exact ((valueText_ends h).prepend _).prepend _
  cases h with
  | plain h =>
    refine sepText_ends (fun _ _ h => ?_) h
    cases h with
    | one h => exact dec h
    | two _ _ h => exact ((dec h).prepend _).prepend _
  | more _ _ h =>
    refine (EndsIn.prepend _ ?_).prepend _
    rcases h with rfl | rfl
    · exact ⟨c!"..", '.', rfl, .inr (.inl rfl)⟩
    · exact ⟨[], '…', rfl, .inr (.inr rfl)⟩

theorem samplesText_ends {s : Str} {x : Samples} (h : SamplesText bits s x) : EndsIn RuleEnd s := by
  cases h with
  | int _ h => exact (sampleListText_ends h).prepend _
  | dec _ h => exact (sampleListText_ends h).prepend _
  | both _ _ _ h => exact (((sampleListText_ends h).prepend _).prepend _).prepend _

theorem ruleEnd_not_white {c : Char} (h : RuleEnd c) (hw : patternWhite c = true) : False := by
  rcases h with h | rfl | rfl
  · simp only [isDigit, Bool.and_eq_true, decide_eq_true_eq] at h
    have h0 : '0'.toNat = 48 := rfl
    have h9 : '9'.toNat = 57 := rfl
    simp only [patternWhite, Bool.or_eq_true, Bool.and_eq_true, decide_eq_true_eq, beq_iff_eq] at hw
    omega
  · revert hw; decide
  · revert hw; decide

/-! ## With spaces put in -/

theorem value_spaced {s : Str} {k : Nat} (h : Value Tight s k) (hk : k < 2 ^ bits) : ValueText bits s k := by
  obtain ⟨l, hl, ht, rfl⟩ := h
  exact ⟨l, hl, token_tight ht, rfl, hk⟩

theorem value_strip {s : Str} {k : Nat} (h : ValueText bits s k) : strip s = s := by
  obtain ⟨l, -, rfl, -⟩ := h
  exact strip_digits l

theorem sepText_spaced {α : Type} {Sep Sep' : Str → Prop} {E E' : Str → α → Prop} (hS : ∀ m, Sep m → ∃ m', Sep' m' ∧ strip m' = m)
    {t : Str} {l : List α} (hE : ∀ s x, x ∈ l → E s x → ∃ s', E' s' x ∧ strip s' = s) (h : SepText Sep E E t l) :
    ∃ t', SepText Sep' E' E' t' l ∧ strip t' = t := by
  induction h with
  | last h =>
    obtain ⟨s', h1, h2⟩ := hE _ _ (by simp) h
    exact ⟨s', .last h1, h2⟩
  | cons h1 h2 _ ih =>
    obtain ⟨s', h3, h4⟩ := hE _ _ (by simp) h1
    obtain ⟨m', h5, h6⟩ := hS _ h2
    obtain ⟨t', h7, h8⟩ := ih fun s x hx => hE s x (by simp [hx])
    exact ⟨s' ++ (m' ++ t'), .cons h3 h5 h7, by rw [strip_append, strip_append, h4, h6, h8]⟩

theorem item_spaced {s : Str} {x : RangeListItem} (h : Item Tight s x) (hx : itemNumbers (· < 2 ^ bits) x) :
    ItemText bits s x ∧ strip s = s := by
  cases h with
  | value h => exact ⟨.value (value_spaced h hx), value_strip (value_spaced h hx)⟩
  | range h1 h2 h3 =>
    have a := value_spaced h1 hx.1
    have b := value_spaced h3 hx.2
    rw [token_tight h2]
    exact ⟨.range a b, by rw [strip_append, strip_append, value_strip a, value_strip b]; rfl⟩

theorem mark_spaced {w m : Str} (hw : strip w = w) (h : Token Tight w m) : ∃ m', Mark w m' ∧ strip m' = m :=
  ⟨m, comma_mark h, by rw [token_tight h, hw]⟩

theorem spaces1_one : Spaces1 c!" " := ⟨by simp [Spaces], by simp⟩

theorem word_spaced {w m : Str} (hw : strip w = w) (h : Token Tight w m) : ∃ m', Word w m' ∧ strip m' = m :=
  ⟨c!" " ++ (w ++ c!" "), ⟨_, _, spaces1_one, spaces1_one, rfl⟩, by
    rw [strip_append, strip_append, hw, token_tight h]; simp [show strip c!" " = [] by decide]⟩

theorem list_spaced {s : Str} {l : List RangeListItem} (h : RangeList Tight s l) (hl : ∀ x ∈ l, itemNumbers (· < 2 ^ bits) x) :
    ∃ s', ListText bits s' l ∧ strip s' = s :=
  sepText_spaced (fun _ h => mark_spaced (by decide) h) (fun s x hx h => ⟨s, (item_spaced h (hl x hx)).1, (item_spaced h (hl x hx)).2⟩) h

theorem expr_spaced {s : Str} {e : Expression} (h : Expr Tight s e) (he : ∀ m, e.modulus = some m → m < 2 ^ bits) :
    ∃ s', ExprText bits s' e ∧ strip s' = s := by
  cases h with
  | @plain o s h => exact ⟨_, .plain o, by rw [token_tight h, strip_letter]⟩
  | @modulo o s m t k h1 h2 h3 =>
    have hv := value_spaced h3 (he k rfl)
    have hm : ∃ w, (w = c!"mod" ∨ w = c!"%") ∧ m = w ∧ strip w = w := by
      rcases h2 with h2 | h2
      · exact ⟨_, .inl rfl, token_tight h2, by decide⟩
      · exact ⟨_, .inr rfl, token_tight h2, by decide⟩
    obtain ⟨w, hw, rfl, hs⟩ := hm
    refine ⟨_, .modulo o (a := []) (b := c!" ") (by simp [Spaces]) hw spaces1_one hv, ?_⟩
    rw [token_tight h1]
    have e : operandLetter o :: ([] ++ (m ++ (c!" " ++ t))) = [operandLetter o] ++ (m ++ (c!" " ++ t)) := by simp
    rw [e, strip_append, strip_append, strip_append, strip_letter, hs, value_strip hv]
    rfl

/-- An operator with one space after each word. -/
def opSpaced : Operator → Str
  | .EQ => c!"=" | .NotEQ => c!"!=" | .Is => c!"is " | .IsNot => c!"is not" | .In => c!"in" | .NotIn => c!"not in"
  | .Within => c!"within" | .NotWithin => c!"not within"

theorem opSpaced_text (o : Operator) : OpText (opSpaced o) o ∧ strip (opSpaced o) = opWord o := by
  cases o with
  | EQ => exact ⟨.eq, by decide⟩
  | NotEQ => exact ⟨.ne, by decide⟩
  | Is => exact ⟨.is spaces1_one, by decide⟩
  | IsNot => exact ⟨.isNot spaces1_one, by decide⟩
  | In => exact ⟨.in, by decide⟩
  | NotIn => exact ⟨.notIn spaces1_one, by decide⟩
  | Within => exact ⟨.within, by decide⟩
  | NotWithin => exact ⟨.notWithin spaces1_one, by decide⟩

theorem rel_spaced {s : Str} {x : Relation} (h : Rel Tight s x) (hx : relNumbers (· < 2 ^ bits) x) :
    ∃ s', RelText bits s' x ∧ strip s' = s := by
  have key : ∀ {s t : Str} {e : Expression} {op : Operator} {l : List RangeListItem}, Expr Tight s e →
      (∀ m, e.modulus = some m → m < 2 ^ bits) → (∃ t', ListText bits t' l ∧ strip t' = t) →
      ∃ s', RelText bits s' ⟨e, op, l⟩ ∧ strip s' = s ++ (opWord op ++ t) := by
    intro s t e op l hs he ht
    obtain ⟨s', h1, h2⟩ := expr_spaced hs he
    obtain ⟨t', h3, h4⟩ := ht
    obtain ⟨h5, h6⟩ := opSpaced_text op
    exact ⟨s' ++ ([] ++ (opSpaced op ++ ([] ++ t'))), .mk h1 (by simp [Spaces]) h5 (by simp [Spaces]) h3, by
      simp only [List.nil_append]
      rw [strip_append, strip_append, h2, h6, h4]⟩
  cases h with
  | is h1 h2 h3 =>
    rw [h2.word]
    have hv := value_spaced h3 (hx.2 (.value _) (by simp))
    exact key h1 hx.1 ⟨_, .last (.value hv), value_strip hv⟩
  | list h1 h2 h3 =>
    rw [h2.word]
    exact key h1 hx.1 (list_spaced h3 hx.2)

theorem and_spaced {s : Str} {x : AndCondition} (h : AndCond Tight s x) (hx : ∀ r ∈ x, relNumbers (· < 2 ^ bits) r) :
    ∃ s', AndText bits s' x ∧ strip s' = s :=
  sepText_spaced (fun _ h => word_spaced (by decide) h) (fun _ x hr h => rel_spaced h (hx x hr)) h

theorem cond_spaced {s : Str} {x : Condition} (h : Cond Tight s x) (hx : ∀ a ∈ x, ∀ r ∈ a, relNumbers (· < 2 ^ bits) r) :
    ∃ s', CondText bits s' x ∧ strip s' = s :=
  sepText_spaced (fun _ h => word_spaced (by decide) h) (fun _ x hr h => and_spaced h (hx x hr)) h

theorem decimal_spaced {s : Str} {x : DecimalValue} (h : Decimal Tight s x) (hi : x.integer < 2 ^ bits)
    (hd : ∀ d, x.decimal = some d → d < 2 ^ bits) : DecimalText bits s x ∧ strip s = s := by
  cases h with
  | int h => exact ⟨.int (value_spaced h hi), value_strip (value_spaced h hi)⟩
  | @dec l t b h1 h2 =>
    have hv := value_spaced h2 (hd b rfl)
    refine ⟨.dec ⟨l, h1, rfl, rfl, hi⟩ hv, ?_⟩
    rw [strip_append, strip_append, strip_digits, value_strip hv]
    rfl

theorem sampleRange_spaced {s : Str} {x : SampleRange} (h : SRange Tight s x)
    (hx : x.lower.integer < 2 ^ bits ∧ (∀ d, x.lower.decimal = some d → d < 2 ^ bits) ∧
      ∀ u, x.upper = some u → u.integer < 2 ^ bits ∧ ∀ d, u.decimal = some d → d < 2 ^ bits) :
    SampleRangeText bits s x ∧ strip s = s := by
  cases h with
  | one h => exact ⟨.one (decimal_spaced h hx.1 hx.2.1).1, (decimal_spaced h hx.1 hx.2.1).2⟩
  | two h1 h2 h3 =>
    obtain ⟨a1, a2⟩ := decimal_spaced h1 hx.1 hx.2.1
    obtain ⟨b1, b2⟩ := decimal_spaced h3 (hx.2.2 _ rfl).1 (hx.2.2 _ rfl).2
    refine ⟨.two a1 (comma_mark h2) b1, ?_⟩
    rw [strip_append, strip_append, a2, b2, token_tight h2]
    rfl

theorem sampleList_spaced {s : Str} {x : SampleList} (h : SList Tight s x) (hx : sampleNumbers (· < 2 ^ bits) x) :
    ∃ s', SampleListText bits s' x ∧ strip s' = s := by
  have key : ∀ {s l}, SRanges Tight s l → sampleNumbers (· < 2 ^ bits) ⟨l, false⟩ →
      ∃ s', SepText (Mark c!",") (SampleRangeText bits) (SampleRangeText bits) s' l ∧ strip s' = s := fun h hx =>
    sepText_spaced (fun _ h => mark_spaced (by decide) h)
      (fun s x hr h => ⟨s, (sampleRange_spaced h (hx x hr)).1, (sampleRange_spaced h (hx x hr)).2⟩) h
  cases h with
  | plain h =>
    obtain ⟨s', h1, h2⟩ := key h hx
    exact ⟨s', .plain h1, h2⟩
  | @more s m e l h1 h2 h3 =>
    obtain ⟨s', h4, h5⟩ := key h1 hx
    have he : (e = c!"..." ∨ e = c!"…") ∧ strip e = e := by
      rcases h3 with h3 | h3
      · rw [token_tight h3]; exact ⟨.inr rfl, by decide⟩
      · rw [token_tight h3]; exact ⟨.inl rfl, by decide⟩
    refine ⟨s' ++ (m ++ e), .more h4 (comma_mark h2) he.1, ?_⟩
    rw [strip_append, strip_append, h5, he.2, token_tight h2]
    rfl

theorem samples_spaced {s : Str} {x : Samples} (h : SamplesPart Tight s (some x))
    (hx : (∀ l, x.integer = some l → sampleNumbers (· < 2 ^ bits) l) ∧ ∀ l, x.decimal = some l → sampleNumbers (· < 2 ^ bits) l) :
    ∃ s', SamplesText bits s' x ∧ strip s' = s := by
  generalize hy : some x = y at h
  cases h with
  | none => cases hy
  | int h1 h2 =>
    cases hy
    obtain ⟨s', h3, h4⟩ := sampleList_spaced h2 (hx.1 _ rfl)
    obtain ⟨m', h5, h6⟩ := word_spaced (by decide) h1
    exact ⟨m' ++ s', .int h5 h3, by rw [strip_append, h4, h6]⟩
  | dec h1 h2 =>
    cases hy
    obtain ⟨s', h3, h4⟩ := sampleList_spaced h2 (hx.2 _ rfl)
    obtain ⟨m', h5, h6⟩ := word_spaced (by decide) h1
    exact ⟨m' ++ s', .dec h5 h3, by rw [strip_append, h4, h6]⟩
  | both h1 h2 h1' h2' =>
    cases hy
    obtain ⟨s', h3, h4⟩ := sampleList_spaced h2 (hx.1 _ rfl)
    obtain ⟨m', h5, h6⟩ := word_spaced (by decide) h1
    obtain ⟨s'', h3', h4'⟩ := sampleList_spaced h2' (hx.2 _ rfl)
    obtain ⟨m'', h5', h6'⟩ := word_spaced (by decide) h1'
    exact ⟨m' ++ (s' ++ (m'' ++ s'')), .both h5 h3 h5' h3', by
      rw [strip_append, strip_append, strip_append, h4, h6, h4', h6']⟩

/-- A published text with a condition can be spaced so that the parser reads it. -/
theorem rule_spaced {s : Str} {x : Rule} (h : UtsRule s x) (hne : x.condition ≠ []) (hx : ruleNumbers (· < 2 ^ bits) x) :
    ∃ s', RuleText bits s' x ∧ strip s' = strip s := by
  have h := RuleOf.strip h
  generalize strip s = s at h
  cases h with
  | other => exact absurd rfl hne
  | @cond a s t c z h1 h2 h3 =>
    obtain rfl := h1
    obtain ⟨s', h4, h5⟩ := cond_spaced h2 hx.1
    cases z with
    | none =>
      cases h3
      exact ⟨s', .cond h4, by simp [h5]⟩
    | some z =>
      obtain ⟨t', h6, h7⟩ := samples_spaced h3 (hx.2 z rfl)
      exact ⟨s' ++ t', .full h4 h6, by rw [strip_append, h5, h7]; rfl⟩

end read

end Verif.UtsSyntax
