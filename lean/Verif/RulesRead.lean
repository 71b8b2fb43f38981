import Verif.Rust
import Verif.LangId

/-!
# Reading an entry of a table of `intl_pluralrules/src/rules.rs`

The macro `langid!` (rules.rs:11-15) passes its three arguments to `LanguageIdentifier::from_raw_parts_unchecked` with
no variants.
-/

namespace Verif.RulesRead
open Verif Rust

/-- Drop the given tokens from the front. -/
def expect : List Tok → List Tok → Option (List Tok)
  | [], r => some r
  | _ :: _, [] => none
  | t :: ts, u :: r => if t = u then expect ts r else none

/-- `subtags::Kind::from_raw_unchecked(n)`, with at most `bytes` bytes. -/
def readRaw (kind suffix : Str) (bytes : Nat) (ts : List Tok) : Option (Str × List Tok) :=
  match expect [.id c!"subtags", symPath, .id kind, symPath, .id c!"from_raw_unchecked", symOpen] ts with
  | some (.lit n suf :: r) =>
    if suf = suffix ∧ n < 256 ^ bytes then (expect [symClose] r).map fun r' => (LangId.ofRaw bytes n, r') else none
  | _ => none

/-- `None`, or `Some(subtags::Kind::from_raw_unchecked(n))`. -/
def readOpt (kind suffix : Str) (bytes : Nat) (ts : List Tok) : Option (Option Str × List Tok) :=
  match expect [.id c!"None"] ts with
  | some r => some (none, r)
  | none =>
    match expect [.id c!"Some", symOpen] ts with
    | none => none
    | some r =>
      match readRaw kind suffix bytes r with
      | none => none
      | some (x, r') => (expect [symClose] r').map fun r'' => (some x, r'')

/-- `langid!(language, script, region)`. -/
def readLangid (ts : List Tok) : Option (LangId × List Tok) :=
  match expect [.id c!"langid", symNot, symOpen] ts with
  | none => none
  | some r =>
    match readRaw c!"Language" c!"u64" 8 r with
    | none => none
    | some (l, r) =>
      match expect [.sym c!","] r with
      | none => none
      | some r =>
        match readOpt c!"Script" c!"u32" 4 r with
        | none => none
        | some (s, r) =>
          match expect [.sym c!","] r with
          | none => none
          | some r =>
            match readOpt c!"Region" c!"u32" 4 r with
            | none => none
            | some (g, r) =>
              (expect [symClose] r).map fun r => ({ language := some l, script := s, region := g, variants := none }, r)

/-- `|po| body` up to the end of the entry: a block in braces, or an expression; an optional comma before the closing
parenthesis. -/
def readClosure (ts : List Tok) : Option Closure :=
  match expect [.sym c!"|", .id c!"po", .sym c!"|"] ts with
  | none => none
  | some r =>
    match r.reverse with
    | c :: rev =>
      if c = symClose then
        let rev := match rev with
          | d :: rev' => if d = .sym c!"," then rev' else rev
          | [] => []
        let body := rev.reverse
        match body, rev with
        | o :: inner, e :: _ =>
          if o = symLBrace ∧ e = symRBrace then parseBody inner.dropLast else parseBody body
        | _, _ => none
      else none
    | [] => none

/-- One entry: `(langid!(…), |po| …)`. -/
def readEntry (ts : List Tok) : Option (LangId × Closure) :=
  match expect [symOpen] ts with
  | none => none
  | some r =>
    match readLangid r with
    | none => none
    | some (id, r) =>
      match expect [.sym c!","] r with
      | none => none
      | some r => (readClosure r).map fun f => (id, f)

end Verif.RulesRead
