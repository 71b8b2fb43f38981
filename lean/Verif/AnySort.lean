import Verif.Generate

/-!
# `generate_rs` with any sorting algorithm

`slice::sort_unstable_by` (make_pluralrules/src/lib.rs:81) promises a sorted permutation and nothing about entries with equal
identifiers.  `Verif.Generate` sorts by insertion; here the algorithm is a parameter.  With insertion these are the functions of
`Verif.Generate` (`generateRsWith_sortById`).
-/

namespace Verif.Generate
open Verif Rust GenPr GenRs

/-- What `sort_unstable_by(|a, b| a.0.cmp(&b.0))` promises. -/
def Sorts (sort : List (LangId × List (Str × Str)) → List (LangId × List (Str × Str))) : Prop :=
  ∀ l, (sort l).Perm l ∧ (sort l).Pairwise fun a b => LangId.cmp a.1 b.1 ≠ .gt

variable (sort : List (LangId × List (Str × Str)) → List (LangId × List (Str × Str)))

/-- make_pluralrules/src/lib.rs:62-119 (`gen_type_rs`), before the tokens of an entry are put together. -/
def genTypeEntriesWith (parseId : Str → Option LangId) (obj : TypeObj) :
    Option (List (LangId × List (PluralCategory × List Tok))) :=
  match parseKeys parseId (btree (obj.map fun p => (p.1, btree p.2))) with
  | none => none
  | some rules => mapPanic (fun p => (genLocaleRules p.2).map fun s => (p.1, s)) (sort rules)

/-- make_pluralrules/src/lib.rs:62-119 (`gen_type_rs`). -/
def genTypeRsWith (parseId : Str → Option LangId) (obj : TypeObj) : Option (List (List Tok)) :=
  (genTypeEntriesWith sort parseId obj).map (·.map fun p => genMid p.1 p.2)

/-- make_pluralrules/src/lib.rs:37-43 and :45-51. -/
def addTypeWith (parseId : Str → Option LangId) (old : Option (List (List Tok))) :
    Option TypeObj → Option (Option (List (List Tok)))
  | none => some old
  | some data =>
    match genTypeRsWith sort parseId data with
    | none => none
    | some toks => if old.isSome then none else some (some toks)

/-- make_pluralrules/src/lib.rs:25-52, one input file. -/
def genStepWith (parseId : Str → Option LangId) (s : GenState) (r : Resource) : Option GenState :=
  if s.version.isSome && s.version != some r.cldrVersion then none
  else
    match addTypeWith sort parseId s.cardinal r.cardinal with
    | none => none
    | some c =>
      match addTypeWith sort parseId s.ordinal r.ordinal with
      | none => none
      | some o => some { version := some r.cldrVersion, cardinal := c, ordinal := o }

/-- make_pluralrules/src/lib.rs:25-52, all input files. -/
def genLoopWith (parseId : Str → Option LangId) : GenState → List Resource → Option GenState
  | s, [] => some s
  | s, r :: rest =>
    match genStepWith sort parseId s r with
    | none => none
    | some s' => genLoopWith parseId s' rest

/-- make_pluralrules/src/lib.rs:21-60 (`generate_rs`) up to `to_string`, on parsed files; `none` is a panic. -/
def generateTokensWith (parseId : Str → Option LangId) (rs : List Resource) : Option (List Tok) :=
  match genLoopWith sort parseId { version := none, cardinal := none, ordinal := none } rs with
  | none => none
  | some s =>
    match s.version with
    | none => none
    | some v =>
      if s.cardinal.isNone && s.ordinal.isNone then none
      else
        genFn ((s.cardinal.toList.map fun t => (RuleType.cardinal, t)) ++
          (s.ordinal.toList.map fun t => (RuleType.ordinal, t))) v

/-- make_pluralrules/src/lib.rs:21-60 (`generate_rs`) on parsed files. -/
def generateRsWith (parseId : Str → Option LangId) (rs : List Resource) : Option Str :=
  (generateTokensWith sort parseId rs).map render

/-- The model of `Verif.Generate` is this one with insertion sort. -/
theorem generateRsWith_sortById (parseId : Str → Option LangId) (rs : List Resource) :
    generateRsWith sortById parseId rs = generateRs parseId rs := by
  have h : ∀ rs s, genLoopWith sortById parseId s rs = genLoop parseId s rs := by
    intro rs
    induction rs with
    | nil => intro s; rfl
    | cons r rs ih =>
      intro s
      have e : genStepWith sortById parseId s r = genStep parseId s r := rfl
      simp only [genLoopWith, genLoop, e, ih]
      rfl
  simp only [generateRsWith, generateTokensWith, generateRs, generateTokens, h]
  rfl

end Verif.Generate
