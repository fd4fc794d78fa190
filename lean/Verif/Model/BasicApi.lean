import Verif.Model.Operators
/-
Models `basic.h`: the variable templates and literal operators that build basic
parsers.
-/

namespace Tok3n

variable {α : Type}

section
variable [LinearOrder α]

/-- `any<arr>` (basic.h:14-15), `any_of<t, ts...>` (17-19), `"..."_any` (40-44),
`"..."_any_of` (46-50). -/
def anyApi (arr : List α) : Parser α := .anyOf (sortAndUnique arr)

/-- `none<arr>` (basic.h:21-22), `none_of<t, ts...>` (24-26), `"..."_none` (52-56),
`"..."_none_of` (58-62). -/
def noneApi (arr : List α) : Parser α := .noneOf (sortAndUnique arr)

end

/-- `all<arr>` (basic.h:28-29), `all_of<t, ts...>` (31-33), `"..."_all` (64-68),
`"..."_all_of` (70-74). -/
def allApi (arr : List α) : Parser α := .allOf arr

/-- `ign<arr>` (basic.h:35-36), `"..."_ign` (76-80). -/
def ignApi (arr : List α) : Parser α := .ignore (.allOf arr)

end Tok3n
