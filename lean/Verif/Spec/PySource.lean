import Mathlib.Data.Rat.Defs
import Mathlib.Algebra.Order.Ring.Rat

/-!
# Specification: how Python reads assignments of numbers and lists

A reader for the part of Python that a generated table uses: statements `name = value` on lines of their own, where a
value is an integer, a decimal fraction or a list display, with comments and continuation lines. Text is read
character by character into tokens, and the tokens are read by an automaton with a stack of open lists. Everything else
is rejected (`none`).
-/

namespace Verif.Spec.PySource

/-- Tokens; `indent` is space at the beginning of a line. -/
inductive Tok where
  | word (w : List Char) | nl | indent | eq | lb | rb | comma | minus | bad
  deriving DecidableEq, Repr

/-- Where the reader of characters is: at the beginning of a line, within it, within a word, within a comment, after a
backslash. -/
inductive Mode where
  | bol | normal | word (acc : List Char) | comment | cont
  deriving DecidableEq, Repr

/-- Characters of names and numbers. -/
def isWord (c : Char) : Bool := c.isAlphanum || c = '_' || c = '.'

/-- The token of a character outside words and comments, if it has one. -/
def punct (c : Char) : List Tok :=
  if c = ' ' then [] else if c = '\n' then [.nl] else if c = '=' then [.eq] else if c = '[' then [.lb]
  else if c = ']' then [.rb] else if c = ',' then [.comma] else if c = '-' then [.minus]
  else if c = '#' then [] else if c = '\\' then [] else [.bad]

/-- The tokens complete with the character `c`. -/
def emit : Mode → Char → List Tok
  | .bol, c => if isWord c then [] else if c = ' ' then [.indent] else punct c
  | .normal, c => if isWord c then [] else punct c
  | .word acc, c => if isWord c then [] else .word acc :: punct c
  | .comment, c => if c = '\n' then [.nl] else []
  | .cont, c => if c = '\n' then [] else [.bad]

/-- Where the reader is after a character that is not of a word. -/
def after (c : Char) : Mode :=
  if c = '\n' then .bol else if c = '#' then .comment else if c = '\\' then .cont else .normal

/-- Where the reader is after the character `c`. -/
def next : Mode → Char → Mode
  | .word acc, c => if isWord c then .word (acc ++ [c]) else after c
  | .comment, c => if c = '\n' then .bol else .comment
  | .cont, _ => .normal
  | _, c => if isWord c then .word [c] else after c

/-- The tokens of a text. -/
def lex : Mode → List Char → List Tok
  | .word acc, [] => [.word acc]
  | _, [] => []
  | m, c :: cs => emit m c ++ lex (next m c) cs

/-- Values. -/
inductive Val where
  | int (n : ℤ)
  | float (q : ℚ)
  | list (vs : List Val)

/-- The number written by digits. -/
def ofDigits (w : List Char) : ℕ := w.foldl (fun n c => 10 * n + (c.toNat - 48)) 0

/-- The value of a numeric literal: digits (no leading zero, except for zero itself), or digits, a point and digits. -/
def literal (dbl : ℚ → ℚ) (neg : Bool) (w : List Char) : Option Val :=
  if w ≠ [] ∧ w.all Char.isDigit then
    if w.head? = some '0' ∧ ¬ w.all (· = '0') then none
    else some (.int (if neg then -ofDigits w else ofDigits w))
  else
    let ip := w.takeWhile Char.isDigit
    match w.dropWhile Char.isDigit with
    | '.' :: fp =>
      if fp.all Char.isDigit ∧ (ip ≠ [] ∨ fp ≠ []) then
        let q := dbl (ofDigits (ip ++ fp) / 10 ^ fp.length)
        some (.float (if neg then -q else q))
      else none
    | _ => none

/-- The reader of tokens: before a statement; after a name; where a value must follow, with the open lists and
whether a minus sign was read; after a value in a list; after the value of a statement; failed. -/
inductive State where
  | start
  | named (n : List Char)
  | value (n : List Char) (open_ : List (List Val)) (neg : Bool)
  | between (n : List Char) (open_ : List (List Val))
  | done (n : List Char) (v : Val)
  | fail

/-- A value has been read. -/
def push (n : List Char) (v : Val) : List (List Val) → State
  | [] => .done n v
  | vs :: open_ => .between n ((vs ++ [v]) :: open_)

/-- A list ends. -/
def close (n : List Char) : List (List Val) → State
  | [] => .fail
  | vs :: open_ => push n (.list vs) open_

/-- One token. -/
def stepS (dbl : ℚ → ℚ) : State → Tok → State
  | .start, .word w => if (w.head?.map Char.isDigit) = some false ∧ '.' ∉ w then .named w else .fail
  | .start, .nl => .start
  | .named n, .eq => .value n [] false
  | .value n os neg, .word w =>
    match literal dbl neg w with
    | some v => push n v os
    | none => .fail
  | .value n os false, .minus => .value n os true
  | .value n os false, .lb => .value n ([] :: os) false
  | .value n os false, .rb => close n os
  | .value n (o :: os) neg, .nl => .value n (o :: os) neg
  | .value n (o :: os) neg, .indent => .value n (o :: os) neg
  | .between n os, .comma => .value n os false
  | .between n os, .rb => close n os
  | .between n os, .nl => .between n os
  | .between n os, .indent => .between n os
  | _, _ => .fail

/-- The statements read so far, and the state. -/
abbrev Run := List (List Char × Val) × State

/-- One token; at the end of its line a statement takes effect. -/
def step (dbl : ℚ → ℚ) : Run → Tok → Run
  | (env, .done n v), .nl => (env ++ [(n, v)], .start)
  | (env, s), t => (env, stepS dbl s t)

/-- The assignments that a text makes, in order; `dbl` is the double nearest to a decimal fraction. -/
def exec (dbl : ℚ → ℚ) (text : List Char) : Option (List (List Char × Val)) :=
  match (lex .bol (text ++ ['\n'])).foldl (step dbl) ([], .start) with
  | (env, .start) => some env
  | _ => none

/-- The value of a name. -/
def get (env : List (List Char × Val)) (name : String) : Option Val :=
  (env.reverse.find? fun p => p.1 = name.toList).map (·.2)

/-- A list of numbers. -/
def asRow : Val → Option (List ℚ)
  | .list vs => vs.mapM fun v => match v with
    | .float q => some q
    | _ => none
  | _ => none

/-- A list of lists of numbers. -/
def asTable : Val → Option (List (List ℚ))
  | .list vs => vs.mapM asRow
  | _ => none

end Verif.Spec.PySource
