import Verif.GenRs

/-!
# Layouts of tokens

The same tokens with other white space between them (a small specification, not in /repo): what any printer of source text may do
without changing the tokens.
-/

namespace Verif.Layout
open Verif Rust GenPr GenRs

/-- The symbols that are never part of a longer one. -/
def alone (s : Str) : Bool := [c!"(", c!")", c!"[", c!"]", c!"{", c!"}", c!",", c!";"].contains s

/-- Two tokens that need no white space between them: one of them is a symbol, and if both are, one is a bracket, a comma or a
semicolon.  (Less is needed, but this is enough for the layouts of `render` and of rustfmt.) -/
def mayTouch : Tok → Tok → Bool
  | .sym a, .sym b => alone a || alone b
  | .sym _, _ => true
  | _, .sym _ => true
  | _, _ => false

/-- The text of tokens, each with the white space before it. -/
def layOut : List (Str × Tok) → Str
  | [] => []
  | (w, t) :: r => w ++ tokText t ++ layOut r

/-- There is white space wherever two tokens need it. -/
def spaced : List (Str × Tok) → Bool
  | (_, t) :: (w, u) :: r => (!w.isEmpty || mayTouch t u) && spaced ((w, u) :: r)
  | _ => true

/-- No white space next to a point that is followed by a number. -/
def joined : List (Str × Tok) → Bool
  | (w, .sym s) :: (w', .lit n x) :: r => (s != c!"." || w.isEmpty && w'.isEmpty) && joined ((w', .lit n x) :: r)
  | _ :: p :: r => joined (p :: r)
  | _ => true

/-- `text` is a layout of `l`: all that is put before the tokens and at the end is white space, and there is some where needed. -/
def Of (l : List (Str × Tok)) (text : Str) : Prop :=
  (∀ p ∈ l, p.1.all isWhitespace = true) ∧ spaced l = true ∧ ∃ w : Str, w.all isWhitespace = true ∧ text = layOut l ++ w

end Verif.Layout
