import Verif.Resource

/-!
# `generate_rs` on a machine with any pointer width

`usize` and `isize` are the types of the numbers in rules (cldr_pluralrules_parser/src/parser.rs:14) and of the CLDR version
(make_pluralrules/src/parser/gen_rs.rs:40).  `Verif.Generate` has them with 64 bits; here the width `w` of the machine that runs the
generator is a parameter.  With 64 these are the functions of `Verif.Generate` (`generateTextOn_64`).
-/

namespace Verif.Generate
open Verif Rust GenPr GenRs

variable (w : Nat)

/-- make_pluralrules/src/lib.rs:87-114. -/
def genRuleOn (rule : Str × Str) : Option (Option (PluralCategory × List Tok)) :=
  match (splitDash rule.1)[2]? with
  | none => none
  | some catName =>
    match Parser.parsePluralCondition w rule.2 with
    | .error _ => none
    | .ok representation =>
      let cat := categoryOfName catName
      if cat ≠ .OTHER then (genPr representation).map fun tokens => some (cat, tokens) else some none

/-- make_pluralrules/src/lib.rs:85-114. -/
def genLocaleRulesOn (r : List (Str × Str)) : Option (List (PluralCategory × List Tok)) :=
  (mapPanic (genRuleOn w) r).map (·.filterMap id)

/-- make_pluralrules/src/lib.rs:62-119 (`gen_type_rs`). -/
def genTypeRsOn (parseId : Str → Option LangId) (obj : TypeObj) : Option (List (List Tok)) :=
  match parseKeys parseId (btree (obj.map fun p => (p.1, btree p.2))) with
  | none => none
  | some rules => (mapPanic (fun p => (genLocaleRulesOn w p.2).map fun s => (p.1, s)) (sortById rules)).map (·.map fun p => genMid p.1 p.2)

/-- make_pluralrules/src/lib.rs:37-43 and :45-51. -/
def addTypeOn (parseId : Str → Option LangId) (old : Option (List (List Tok))) :
    Option TypeObj → Option (Option (List (List Tok)))
  | none => some old
  | some data =>
    match genTypeRsOn w parseId data with
    | none => none
    | some toks => if old.isSome then none else some (some toks)

/-- make_pluralrules/src/lib.rs:25-52, one input file. -/
def genStepOn (parseId : Str → Option LangId) (s : GenState) (r : Resource) : Option GenState :=
  if s.version.isSome && s.version != some r.cldrVersion then none
  else
    match addTypeOn w parseId s.cardinal r.cardinal with
    | none => none
    | some c =>
      match addTypeOn w parseId s.ordinal r.ordinal with
      | none => none
      | some o => some { version := some r.cldrVersion, cardinal := c, ordinal := o }

/-- make_pluralrules/src/lib.rs:25-52, all input files. -/
def genLoopOn (parseId : Str → Option LangId) : GenState → List Resource → Option GenState
  | s, [] => some s
  | s, r :: rest =>
    match genStepOn w parseId s r with
    | none => none
    | some s' => genLoopOn parseId s' rest

/-- make_pluralrules/src/parser/gen_rs.rs:10-50 (`gen_fn`). -/
def genFnOn (streams : List (RuleType × List (List Tok))) (vr : Str) : Option (List Tok) :=
  match parseSigned w vr with
  | none => none
  | some num => some (head (isizeAsU64 num) ++ (streams.map fun p => createPrType p.1 p.2).flatten)

/-- make_pluralrules/src/lib.rs:21-60 (`generate_rs`) on parsed files. -/
def generateRsOn (parseId : Str → Option LangId) (rs : List Resource) : Option Str :=
  match genLoopOn w parseId { version := none, cardinal := none, ordinal := none } rs with
  | none => none
  | some s =>
    match s.version with
    | none => none
    | some v =>
      if s.cardinal.isNone && s.ordinal.isNone then none
      else
        (genFnOn w ((s.cardinal.toList.map fun t => (RuleType.cardinal, t)) ++
          (s.ordinal.toList.map fun t => (RuleType.ordinal, t))) v).map render

/-- make_pluralrules/src/lib.rs:21-60 (`generate_rs`), from texts to text. -/
def generateTextOn (parseId : Str → Option LangId) (texts : List Str) : Option Str :=
  match mapPanic Resource.parseResource texts with
  | none => none
  | some rs => generateRsOn w parseId rs

/-- The model of `Verif.Generate` is this one with 64 bits. -/
theorem generateTextOn_64 (parseId : Str → Option LangId) (texts : List Str) :
    generateTextOn 64 parseId texts = Resource.generateText parseId texts := by
  have ht : ∀ obj, genTypeRsOn 64 parseId obj = genTypeRs parseId obj := by
    intro obj
    unfold genTypeRsOn genTypeRs genTypeEntries
    cases parseKeys parseId (btree (obj.map fun p => (p.1, btree p.2))) <;> rfl
  have ha : ∀ old x, addTypeOn 64 parseId old x = addType parseId old x := by
    intro old x
    cases x with
    | none => rfl
    | some obj => simp only [addTypeOn, addType, ht]; rfl
  have h : ∀ rs s, genLoopOn 64 parseId s rs = genLoop parseId s rs := by
    intro rs
    induction rs with
    | nil => intro s; rfl
    | cons r rs ih =>
      intro s
      have e : genStepOn 64 parseId s r = genStep parseId s r := by simp only [genStepOn, genStep, ha]; rfl
      simp only [genLoopOn, genLoop, e, ih]
      rfl
  have hr : ∀ rs, generateRsOn 64 parseId rs = generateRs parseId rs := by
    intro rs
    unfold generateRsOn generateRs generateTokens
    rw [h]
    cases genLoop parseId { version := none, cardinal := none, ordinal := none } rs with
    | none => rfl
    | some s =>
      simp only
      cases s.version with
      | none => rfl
      | some v =>
        simp only
        split <;> rfl
  unfold generateTextOn Resource.generateText
  cases mapPanic Resource.parseResource texts with
  | none => rfl
  | some rs => exact hr rs

end Verif.Generate
