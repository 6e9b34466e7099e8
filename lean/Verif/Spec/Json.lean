import Verif.Model.Basic

/-!
# Specification of client data

The JSON object a browser produces for a passkey signature, restricted to the part that matters: one flat object whose members are strings
without escapes, or literals such as `false`.
-/

namespace Verif

inductive JVal where
  | str (s : Bytes)
  /-- `true`, `false`, a number, `null`. -/
  | lit (s : Bytes)
  deriving DecidableEq, Repr

/-- No quote (34) and no backslash (92). -/
def PlainText (s : Bytes) : Prop := ∀ b ∈ s, b ≠ 34 ∧ b ≠ 92

/-- Not empty; no quote, no braces, no white space. -/
def PlainLit (s : Bytes) : Prop :=
  s ≠ [] ∧ ∀ b ∈ s, b ≠ 34 ∧ b ≠ 123 ∧ b ≠ 125 ∧ b ≠ 32 ∧ b ≠ 9 ∧ b ≠ 10 ∧ b ≠ 12 ∧ b ≠ 13

def JVal.Plain : JVal → Prop
  | .str s => PlainText s
  | .lit s => PlainLit s

def JVal.text : JVal → Bytes
  | .str s => [34] ++ s ++ [34]
  | .lit s => s

/-- `"key":value` -/
def memberText (m : Bytes × JVal) : Bytes := [34] ++ m.1 ++ [34, 58] ++ m.2.text

def membersText : List (Bytes × JVal) → Bytes
  | [] => []
  | [m] => memberText m
  | m :: n :: ms => memberText m ++ [44] ++ membersText (n :: ms)

/-- `{"k1":v1,"k2":v2,...}` -/
def objectText (ms : List (Bytes × JVal)) : Bytes := [123] ++ membersText ms ++ [125]

def Plain (ms : List (Bytes × JVal)) : Prop := ∀ m ∈ ms, PlainText m.1 ∧ m.2.Plain

/-- The contents of a string value. -/
def JVal.string? : JVal → Option Bytes
  | .str s => some s
  | .lit _ => none

/-- The string stored under `name`: the first member with that key, provided it is a string. -/
def lookupString (name : Bytes) : List (Bytes × JVal) → Option Bytes
  | [] => none
  | (k, v) :: ms =>
    if k = name then v.string?
    else lookupString name ms

/-! JSON values with nesting (no white space, no escapes), to compare the parser with. -/

mutual
inductive Json where
  | str (s : Bytes)
  | lit (s : Bytes)
  | obj (ms : Members)
/-- The members of an object. -/
inductive Members where
  | nil
  | cons (key : Bytes) (value : Json) (more : Members)
end

mutual
def Json.text : Json → Bytes
  | .str s => [34] ++ s ++ [34]
  | .lit s => s
  | .obj ms => [123] ++ ms.text ++ [125]
def Members.text : Members → Bytes
  | .nil => []
  | .cons k v .nil => [34] ++ k ++ [34, 58] ++ v.text
  | .cons k v (.cons k' v' ms) => [34] ++ k ++ [34, 58] ++ v.text ++ [44] ++ Members.text (.cons k' v' ms)
end

mutual
def Json.Plain : Json → Prop
  | .str s => PlainText s
  | .lit s => PlainLit s
  | .obj ms => ms.Plain
def Members.Plain : Members → Prop
  | .nil => True
  | .cons k v ms => PlainText k ∧ v.Plain ∧ ms.Plain
end

/-- All strings stored under `name` in the object itself (not in objects inside it). -/
def Members.strings (name : Bytes) : Members → List Bytes
  | .nil => []
  | .cons k (.str s) ms => if k = name then s :: ms.strings name else ms.strings name
  | .cons _ _ ms => ms.strings name

end Verif
