import Verif.Tests.Check
/- Generated by tools/tests2lean.py from tests/common/include/samples. -/

namespace Tok3n.Tests.NonChar

abbrev Any1 : Parser Nat := (.anyOf [1, 2, 3])
abbrev Any2 : Parser Nat := (.anyOf [2, 3, 4])
abbrev Any3 : Parser Nat := (.anyOf [5, 6, 7])
abbrev Any4 : Parser Nat := (.anyOf [2, 3])
abbrev Non1 : Parser Nat := (.noneOf [1, 2, 3])
abbrev Non2 : Parser Nat := (.noneOf [2, 3, 4])
abbrev Non3 : Parser Nat := (.noneOf [5, 6, 7])
abbrev Non4 : Parser Nat := (.noneOf [2, 3])
abbrev Non5 : Parser Nat := (.noneOf [7])
abbrev All1 : Parser Nat := (.allOf [5, 6, 7])
abbrev All2 : Parser Nat := (.allOf [6, 7])
abbrev All3 : Parser Nat := (.allOf [1, 2])
abbrev Eps1 : Parser Nat := .epsilon
abbrev Ant1 : Parser Nat := .anything
abbrev QQ : Parser Nat := (.allOf [8, 8])
abbrev ABC : Parser Nat := (.allOf [1, 2, 3])
abbrev Comma : Parser Nat := (.anyOf [9])
abbrev SpaceDot : Parser Nat := (.anyOf [10, 11])
abbrev s_13 : Parser Nat := (.choice [All1, Any1])
abbrev s_14 : Parser Nat := (.sequence [All1, Any1])
abbrev s_22 : Parser Nat := (.oneOrMore ABC)
abbrev s_23 : Parser Nat := (.maybe (.choice [ABC, QQ]))
abbrev s_24 : Parser Nat := (.sequence [ABC, (.zeroOrMore QQ)])
abbrev s_25 : Parser Nat := (.sequence [(.oneOrMore ABC), (.maybe (.choice [ABC, QQ]))])

end Tok3n.Tests.NonChar
