import Verif.Chars

/-!
# The nom 5 combinators that `cldr_pluralrules_parser` uses

nom is a dependency (`nom = "5.0"`, cldr_pluralrules_parser/Cargo.toml:26) and its source is not in /repo; this is a
reading of nom 5.  All parsers used are `complete` ones, so the only failure is `Err::Error` (never `Incomplete` or
`Failure`), and `IResult<&str, T>` becomes `Option (Str × T)`: the rest of the input and the value.  The error payload
(position and kind) is dropped; no caller looks at it (cldr_pluralrules_parser/src/lib.rs:84,91).
-/

namespace Verif

/-- `fn(&str) -> IResult<&str, α>`. -/
abbrev P (α : Type) := Str → Option (Str × α)

namespace Nom

/-- `bytes::complete::tag`. -/
def tag (t : Str) : P Str := fun i =>
  if t.isPrefixOf i then some (i.drop t.length, t) else none

/-- nom's space characters: blank and tab. -/
def isSpace (c : Char) : Bool := c == ' ' || c == '\t'

/-- `character::complete::space0`. -/
def space0 : P Str := fun i => some (i.dropWhile isSpace, i.takeWhile isSpace)

/-- `character::complete::space1`. -/
def space1 : P Str := fun i =>
  if (i.takeWhile isSpace).isEmpty then none else some (i.dropWhile isSpace, i.takeWhile isSpace)

/-- `character::complete::digit1`. -/
def digit1 : P Str := fun i =>
  if (i.takeWhile isDigit).isEmpty then none else some (i.dropWhile isDigit, i.takeWhile isDigit)

/-- `character::complete::one_of`. -/
def oneOf (cs : Str) : P Char := fun i =>
  match i with
  | c :: t => if cs.contains c then some (t, c) else none
  | [] => none

/-- `combinator::map`. -/
def map (p : P α) (f : α → β) : P β := fun i =>
  match p i with
  | some (r, a) => some (r, f a)
  | none => none

/-- `combinator::map_res`, with the `Result` of the function as an `Option`. -/
def mapRes (p : P α) (f : α → Option β) : P β := fun i =>
  match p i with
  | some (r, a) =>
    match f a with
    | some b => some (r, b)
    | none => none
  | none => none

/-- `combinator::opt`. -/
def opt (p : P α) : P (Option α) := fun i =>
  match p i with
  | some (r, a) => some (r, some a)
  | none => some (i, none)

/-- `branch::alt` on two alternatives; longer `alt`s are nested to the right. -/
def alt (p q : P α) : P α := fun i =>
  match p i with
  | some r => some r
  | none => q i

/-- `sequence::tuple` on two parsers; longer tuples are nested to the right. -/
def pair (p : P α) (q : P β) : P (α × β) := fun i =>
  match p i with
  | some (r, a) =>
    match q r with
    | some (r', b) => some (r', (a, b))
    | none => none
  | none => none

/-- `sequence::preceded`. -/
def preceded (p : P α) (q : P β) : P β := map (pair p q) (·.2)

/-- `sequence::separated_pair`. -/
def separatedPair (p : P α) (s : P σ) (q : P β) : P (α × β) :=
  map (pair p (pair s q)) (fun x => (x.1, x.2.2))

/-- The loop of `multi::separated_list` and `multi::separated_nonempty_list`: the separator and then the element; if
either fails the loop ends *before* that separator.  A separator or an element that consumes nothing is an error.
`fuel` bounds the number of iterations; each iteration consumes input, so the length of the input suffices
(`Verif.Nom.sepLoop_fuel`). -/
def sepLoop (sep : P σ) (f : P α) : Nat → Str → List α → Option (Str × List α)
  | 0, _, _ => none
  | fuel + 1, i, acc =>
    match sep i with
    | none => some (i, acc.reverse)
    | some (i1, _) =>
      if i1 == i then none
      else match f i1 with
        | none => some (i, acc.reverse)
        | some (i2, o) => if i2 == i then none else sepLoop sep f fuel i2 (o :: acc)

/-- `multi::separated_list`: a first element that fails gives the empty list. -/
def separatedList (sep : P σ) (f : P α) : P (List α) := fun i =>
  match f i with
  | none => some (i, [])
  | some (i1, o) => if i1 == i then none else sepLoop sep f (i1.length + 1) i1 [o]

/-- `multi::separated_nonempty_list`: a first element that fails is an error. -/
def separatedNonemptyList (sep : P σ) (f : P α) : P (List α) := fun i =>
  match f i with
  | none => none
  | some (i1, o) => if i1 == i then none else sepLoop sep f (i1.length + 1) i1 [o]

end Nom
end Verif
