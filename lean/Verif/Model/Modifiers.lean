import Verif.Model.TypeLevel
/-
Models `detail/modifiers/*.h`, `detail/aliases/*.h`, `detail/substitution.h`,
`detail/operators/modifier.h` and `modifiers.h`.
-/

namespace Tok3n

variable {α : Type}

/-- The modifier class templates.  Template constraints: `exactly` needs `n ≠ 0`
(modifiers/exactly.h:12), `defaulted` a default constructible type (defaulted.h:12),
`subInner` at least one substitution (sub.h:64). -/
inductive Modifier (α : Type) where
  | complete                                        -- complete_modifier
  | ignore                                          -- ignore_modifier
  | join                                            -- join_modifier
  | delimit                                         -- delimit_modifier
  | delimitInner (d : Parser α)                     -- delimit_modifier::inner<D>
  | delimitKeep                                     -- delimit_keep_modifier
  | delimitKeepInner (d : Parser α)                 -- delimit_keep_modifier::inner<D>
  | exactly (n : Nat)                               -- exactly_modifier<N>
  | map (k : Nat)                                   -- map_modifier<function>
  | filter (k : Nat)                                -- filter_modifier<function>
  | apply (k : Nat)                                 -- apply_modifier<function>
  | applyFilter (k : Nat)                           -- apply_filter_modifier<function>
  | into (t : Ty)                                   -- into_modifier<T>
  | applyInto (t : Ty)                              -- apply_into_modifier<T>
  | constant (k : Nat)                              -- constant_modifier<value>
  | defaulted (t : Ty)                              -- defaulted_modifier<T>
  | multi (ms : List (Modifier α))                  -- multi_modifier<Ms...>
  | name (n : Name)                                 -- name_modifier<str>
  | sub                                             -- sub_modifier
  | subInner (subs : List (Name × Modifier α))      -- sub_modifier::inner<Sub, Subs...>
  deriving Repr

/-- `substitution_info<Name, Mod>` (substitution.h:11-16), built by `name<n> = m`
(name.h:26-30). -/
abbrev Subst (α : Type) := Name × Modifier α

/-- What an operator or a modifier call can produce: the two kinds of operand of `%` (operators/modifier.h:12-24). -/
inductive Term (α : Type) where
  | parser (p : Parser α)
  | modifier (m : Modifier α)
  deriving Repr

/-- `modifier_operator(LHS, RHS)` for two modifiers (operators/modifier.h:19-41). -/
def modMod (a b : Modifier α) : Modifier α :=
  match a, b with
  | .multi l, .multi r => .multi (l ++ r)           -- 37-41
  | .multi l, b => .multi (l ++ [b])                -- 25-29
  | a, .multi r => .multi (a :: r)                  -- 31-35
  | a, b => .multi [a, b]                           -- 19-23

mutual
/-- `substitute_one<T, Sub>` (sub.h:16-40), where `mod` is the call operator of
`Sub::mod`; `none`: ill-formed.
* a name equal to the substitution's (sub.h:22-27): `mod` of the substituted parser;
* another name of the same character type (sub.h:29-34): kept, recursing;
* a name of another character type: neither `==` nor `!=` exists, the primary
  template (sub.h:16-20) applies, nothing is substituted below;
* `Template<Args...>` (sub.h:36-40): recurses into all type arguments (value arguments
  wrapped in `integral_constant`, element types, are left alone by the primary
  template);
* `any_of`, `none_of`, `all_of` (non-type template argument) and custom parsers are
  left alone by the primary template. -/
def substituteOne (n : Name) (mod : Parser α → Option (Term α)) : Parser α → Option (Parser α)
  | .named p str =>
    if n.char = str.char then
      match substituteOne n mod p with
      | none => none
      | some p' =>
        if n = str then
          match mod p' with
          | some (.parser q) => some q
          | _ => none
        else some (.named p' str)
    else some (.named p str)
  | .anyOf arr => some (.anyOf arr)
  | .noneOf arr => some (.noneOf arr)
  | .allOf arr => some (.allOf arr)
  | .anything => some .anything
  | .epsilon => some .epsilon
  | .choice ps => (substituteOnes n mod ps).map .choice
  | .sequence ps => (substituteOnes n mod ps).map .sequence
  | .maybe p => (substituteOne n mod p).map .maybe
  | .exactly p k => (substituteOne n mod p).map (.exactly · k)
  | .oneOrMore p => (substituteOne n mod p).map .oneOrMore
  | .zeroOrMore p => (substituteOne n mod p).map .zeroOrMore
  | .delimit p d =>
    match substituteOne n mod p, substituteOne n mod d with
    | some p', some d' => some (.delimit p' d')
    | _, _ => none
  | .ignore p => (substituteOne n mod p).map .ignore
  | .complete p => (substituteOne n mod p).map .complete
  | .join p => (substituteOne n mod p).map .join
  | .map p f => (substituteOne n mod p).map (.map · f)
  | .filter p f => (substituteOne n mod p).map (.filter · f)
  | .custom k => some (.custom k)
/-- `typename substitute_one<Args, Sub>::type...` (sub.h:39) -/
def substituteOnes (n : Name) (mod : Parser α → Option (Term α)) :
    List (Parser α) → Option (List (Parser α))
  | [] => some []
  | p :: ps =>
    match substituteOne n mod p, substituteOnes n mod ps with
    | some p', some ps' => some (p' :: ps')
    | _, _ => none
end

mutual
/-- `M{}(P{})`, the call operator of a modifier with one parser
(modifiers/*.h, aliases/*.h); `none`: does not compile. -/
def callMod : Modifier α → Parser α → Option (Term α)
  | .complete, p =>                                          -- complete.h:15-22
    some (.parser (if p.family = (Parser.complete p).family then p else .complete p))
  | .ignore, p =>                                            -- ignore.h:15-22
    some (.parser (if p.family = (Parser.ignore p).family then p else .ignore p))
  | .join, p =>                                              -- join.h:15-22
    some (.parser (if p.family = (Parser.join p).family then p else .join p))
  | .delimit, d => some (.modifier (.delimitInner d))        -- delimit.h:34-38
  | .delimitInner d, p => some (.parser (.delimit p (.ignore d)))  -- delimit.h:27-31
  | .delimitKeep, d => some (.modifier (.delimitKeepInner d))      -- delimit_keep.h:33-37
  | .delimitKeepInner d, p => some (.parser (.delimit p d))  -- delimit_keep.h:26-30
  | .exactly n, p => some (.parser (.exactly p n))           -- exactly.h:17-21
  | .map k, p => some (.parser (.map p (.user k)))           -- map.h:16-20
  | .filter k, p => some (.parser (.filter p (.user k)))     -- filter.h:16-20
  | .apply k, p => some (.parser (.map p (.apply (.user k))))          -- apply.h:16-20, apply_map.h
  | .applyFilter k, p => some (.parser (.filter p (.apply (.user k)))) -- apply_filter.h
  | .into t, p => some (.parser (.map p (.construct t)))               -- into.h
  | .applyInto t, p => some (.parser (.map p (.apply (.construct t)))) -- apply_into.h
  | .constant k, p => some (.parser (.map p (.const k)))               -- constant.h
  | .defaulted t, p => some (.parser (.map p (.deflt t)))              -- defaulted.h
  | .multi ms, p =>                                          -- multi.h:16-21
    match callMods ms (.parser p) with
    | some (.parser q) => some (.parser q)
    | _ => none
  | .name n, p => some (.parser (.named p n))                -- name.h:20-24
  | .sub, _ => none                                          -- sub.h:58, 76: needs substitutions
  | .subInner subs, p => (substituteAll subs p).map .parser  -- sub.h:69-73
/-- `(P{} % ... % Ms{})` (multi.h:17, 20) -/
def callMods : List (Modifier α) → Term α → Option (Term α)
  | [], t => some t
  | m :: ms, .parser p =>
    match callMod m p with
    | some t => callMods ms t
    | none => none
  | m :: ms, .modifier a => callMods ms (.modifier (modMod a m))
/-- `substitute(P, Sub, Subs...)` (sub.h:42-50) -/
def substituteAll : List (Name × Modifier α) → Parser α → Option (Parser α)
  | [], p => some p
  | (n, m) :: subs, p =>
    match substituteOne n (callMod m) p with
    | some p' => substituteAll subs p'
    | none => none
end

/-- `operator%` (operators/modifier.h:12-49); `none`: does not compile. -/
def percent : Term α → Term α → Option (Term α)
  | .parser p, .modifier m => callMod m p                    -- 12-17
  | .modifier a, .modifier b => some (.modifier (modMod a b))
  | _, .parser _ => none

/-- `delimit(p, d)` (delimit.h:16-20). -/
def delimitApi (p d : Parser α) : Parser α := .delimit p (.ignore d)
/-- `delimit(d)` (delimit.h:34-38). -/
def delimitApi₁ (d : Parser α) : Modifier α := .delimitInner d

/-- `delimit_keep(p, d)` (delimit_keep.h:15-19). -/
def delimitKeepApi (p d : Parser α) : Parser α := .delimit p d
/-- `delimit_keep(d)` (delimit_keep.h:33-37). -/
def delimitKeepApi₁ (d : Parser α) : Modifier α := .delimitKeepInner d

/-- `sub(p, subs...)` (sub.h:58-62). -/
def subApi (p : Parser α) (subs : List (Subst α)) : Option (Parser α) :=
  if subs = [] then none else substituteAll subs p
/-- `sub(subs...)` (sub.h:76-80). -/
def subApi₁ (subs : List (Subst α)) : Modifier α := .subInner subs

end Tok3n
