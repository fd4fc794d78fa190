import Verif.Tests.Check
/- Generated by tools/tests2lean.py from tests/common/include/samples. -/

namespace Tok3n.Tests

abbrev Any1 : Parser Nat := (.anyOf [97, 98, 99])
abbrev Any2 : Parser Nat := (.anyOf [98, 99, 100])
abbrev Any3 : Parser Nat := (.anyOf [120, 121, 122])
abbrev Any4 : Parser Nat := (.anyOf [99, 100])
abbrev Non1 : Parser Nat := (.noneOf [97, 98, 99])
abbrev Non2 : Parser Nat := (.noneOf [98, 99, 100])
abbrev Non3 : Parser Nat := (.noneOf [120, 121, 122])
abbrev Non4 : Parser Nat := (.noneOf [99, 100])
abbrev Non5 : Parser Nat := (.noneOf [122])
abbrev All1 : Parser Nat := (.allOf [108, 105, 116, 101, 114, 97, 108])
abbrev All2 : Parser Nat := (.allOf [108, 121])
abbrev All3 : Parser Nat := (.allOf [116, 101, 115, 116])
abbrev All4 : Parser Nat := (.allOf [97, 98])
abbrev Eps1 : Parser Nat := .epsilon
abbrev Ant1 : Parser Nat := .anything
abbrev QQ : Parser Nat := (.allOf [63, 63])
abbrev ABC : Parser Nat := (.allOf [97, 98, 99])
abbrev Comma : Parser Nat := (.anyOf [44])
abbrev SpaceDot : Parser Nat := (.anyOf [32, 46])
abbrev s_13 : Parser Nat := (.choice [All1, Any1])
abbrev s_14 : Parser Nat := (.sequence [All1, Any1])
abbrev s_22 : Parser Nat := (.oneOrMore ABC)
abbrev s_23 : Parser Nat := (.maybe (.choice [ABC, QQ]))
abbrev s_24 : Parser Nat := (.sequence [ABC, (.zeroOrMore QQ)])
abbrev s_25 : Parser Nat := (.sequence [(.oneOrMore ABC), (.maybe (.choice [ABC, QQ]))])
abbrev Ign1 : Parser Nat := (.ignore ABC)
abbrev Ign2 : Parser Nat := (.ignore s_22)
abbrev Ign3 : Parser Nat := (.ignore s_23)
abbrev Ign4 : Parser Nat := (.ignore s_24)
abbrev Ign5 : Parser Nat := (.ignore s_25)
abbrev Com1 : Parser Nat := (.complete All1)
abbrev Com2 : Parser Nat := (.complete Any1)
abbrev Com3 : Parser Nat := (.complete s_13)
abbrev Com4 : Parser Nat := (.complete s_14)
abbrev Com5 : Parser Nat := (.complete (.maybe s_14))
abbrev Com6 : Parser Nat := (.complete (.oneOrMore s_14))
abbrev Com7 : Parser Nat := (.complete (.zeroOrMore s_14))
abbrev Nam1 : Parser Nat := (.named ABC ⟨0, [110, 97, 109, 49]⟩)
abbrev Nam2 : Parser Nat := (.named s_22 ⟨0, [110, 97, 109, 50]⟩)
abbrev Nam3 : Parser Nat := (.named s_23 ⟨0, [110, 97, 109, 51]⟩)
abbrev Nam4 : Parser Nat := (.named s_24 ⟨0, [110, 97, 109, 52]⟩)
abbrev Cho1 : Parser Nat := (.choice [All4, Non4])
abbrev Cho2 : Parser Nat := (.choice [Non4, All4])
abbrev Cho3 : Parser Nat := (.choice [All4, Any4, Non5])
abbrev Cho4 : Parser Nat := (.choice [Non5, All4, Any4])
abbrev Cho5 : Parser Nat := (.choice [Ign1, Ign2])
abbrev Seq1 : Parser Nat := (.sequence [All4, Non4])
abbrev Seq2 : Parser Nat := (.sequence [Non4, All4])
abbrev Seq3 : Parser Nat := (.sequence [All4, Any4, Non5])
abbrev Seq4 : Parser Nat := (.sequence [Non5, All4, Any4])
abbrev Seq5 : Parser Nat := (.sequence [Ign1, Ign2])
abbrev Joi1 : Parser Nat := (.join ABC)
abbrev Joi2 : Parser Nat := (.join s_22)
abbrev Joi3 : Parser Nat := (.join s_23)
abbrev Joi4 : Parser Nat := (.join s_24)
abbrev Joi5 : Parser Nat := (.join s_25)
abbrev Map1 : Parser Nat := (.map s_22 (.user f_func1))
abbrev Map2 : Parser Nat := (.map s_23 (.user f_func2))
abbrev Map3 : Parser Nat := (.map s_24 (.user f_func3))
abbrev Map4 : Parser Nat := (.map s_25 (.user f_func4))
abbrev Fil1 : Parser Nat := (.filter s_22 (.user f_filter_func1))
abbrev Fil2 : Parser Nat := (.filter s_23 (.user f_filter_func2))
abbrev Fil3 : Parser Nat := (.filter s_24 (.user f_filter_func3))
abbrev Apm1 : Parser Nat := (.map s_24 (.apply (.user f_func3_apply)))
abbrev Apm2 : Parser Nat := (.map s_25 (.apply (.user f_func4_apply)))
abbrev Apf1 : Parser Nat := (.filter s_24 (.apply (.user f_filter_func3_apply)))
abbrev Int1 : Parser Nat := (.map SpaceDot (.construct tClass1))
abbrev Int2 : Parser Nat := (.map (.sequence [ABC, SpaceDot]) (.construct tClass2))
abbrev Int3 : Parser Nat := (.map (.map (.sequence [ABC, SpaceDot]) (.construct tClass4)) (.construct tClass2))
abbrev Api1 : Parser Nat := (.map (.sequence [ABC, SpaceDot]) (.apply (.construct tClass2)))
abbrev Api2 : Parser Nat := (.map (.sequence [SpaceDot, ABC]) (.apply (.construct tClass5)))
abbrev Con1 : Parser Nat := (.map s_22 (.const (cInt 1)))
abbrev Con2 : Parser Nat := (.map s_23 (.const (cChar 116)))
abbrev Con3 : Parser Nat := (.map s_24 (.const (cBool true)))
abbrev Con4 : Parser Nat := (.map s_25 (.const cNull))
abbrev Def1 : Parser Nat := (.map s_22 (.deflt tInt))
abbrev Def2 : Parser Nat := (.map s_23 (.deflt tClass3))
abbrev cus1 : Parser Nat := (.custom 0)
abbrev cus2 : Parser Nat := (.custom 1)
abbrev May1 : Parser Nat := (.maybe All1)
abbrev May2 : Parser Nat := (.maybe Any1)
abbrev May3 : Parser Nat := (.maybe s_13)
abbrev May4 : Parser Nat := (.maybe s_14)
abbrev Exa1 : Parser Nat := (.exactly All1 3)
abbrev Exa2 : Parser Nat := (.exactly Any1 5)
abbrev Exa3 : Parser Nat := (.exactly s_13 4)
abbrev Exa4 : Parser Nat := (.exactly s_14 2)
abbrev Oom1 : Parser Nat := (.oneOrMore All1)
abbrev Oom2 : Parser Nat := (.oneOrMore Any1)
abbrev Oom3 : Parser Nat := (.oneOrMore s_13)
abbrev Oom4 : Parser Nat := (.oneOrMore s_14)
abbrev Zom1 : Parser Nat := (.zeroOrMore All1)
abbrev Zom2 : Parser Nat := (.zeroOrMore Any1)
abbrev Zom3 : Parser Nat := (.zeroOrMore s_13)
abbrev Zom4 : Parser Nat := (.zeroOrMore s_14)
abbrev Del1 : Parser Nat := (.delimit ABC (.ignore Comma))
abbrev Del2 : Parser Nat := (.delimit ABC (.ignore SpaceDot))
abbrev Del3 : Parser Nat := (.delimit QQ (.ignore Comma))
abbrev Del4 : Parser Nat := (.delimit QQ (.ignore SpaceDot))
abbrev Del5 : Parser Nat := (.delimit Comma (.ignore ABC))
abbrev Del6 : Parser Nat := (.delimit SpaceDot (.ignore ABC))
abbrev Del7 : Parser Nat := (.delimit Comma (.ignore QQ))
abbrev Del8 : Parser Nat := (.delimit SpaceDot (.ignore QQ))
abbrev Dek1 : Parser Nat := (.delimit ABC Comma)
abbrev Dek2 : Parser Nat := (.delimit ABC SpaceDot)
abbrev Dek3 : Parser Nat := (.delimit QQ Comma)
abbrev Dek4 : Parser Nat := (.delimit QQ SpaceDot)
abbrev Dek5 : Parser Nat := (.delimit Comma ABC)
abbrev Dek6 : Parser Nat := (.delimit SpaceDot ABC)
abbrev Dek7 : Parser Nat := (.delimit Comma QQ)
abbrev Dek8 : Parser Nat := (.delimit SpaceDot QQ)

end Tok3n.Tests
