{
 "C05": [
  "partial",
  "Proved for exactly the parsers in which no filter and no join (other than below ignore) ever rejects what the parser in it matched, in particular those without filter whose joins are over parsers that drop nothing (C30_lookahead); refuted for filter and join in general."
 ],
 "C10": [
  "proved",
  "For element comparisons under which no input element equals two different literal elements (as for ==); refuted without that, except for any|any, p|p and p|!p, which hold for every comparison."
 ],
 "C11": [
  "partial",
  "lookahead: fully. parse: for every choice, if the alternatives recorded without index are looked ahead exactly; for choices whose variant indices are right, void alternatives being run by lookahead; for all choices without filter and join. Refuted in general (void filters, wrong indices). What every choice does is C60."
 ],
 "C12": [
  "partial",
  "Proved exactly for the type lists whose indices are recorded right, which are characterised; refuted for others. What happens for the others is C60."
 ],
 "C13": [
  "partial",
  "lookahead: fully. parse: for choices with right variant indices and no p|p of a void p; for all parsers without filter and join; and for all whose alternatives are looked ahead exactly. Refuted in the remaining cases."
 ],
 "C14": [
  "partial",
  "Proved exactly for p with a value and for p whose lookahead says what its parse says (C14_exactly is an equivalence); refuted for void filters."
 ],
 "C15": [
  "partial",
  "lookahead: fully. parse: every sequence, parts without value being run by lookahead; with parse throughout exactly if their lookahead agrees with parse (C15_exactly is an equivalence; eps, ignore, no rejecting filter and join). Refuted for void filters."
 ],
 "C44": [
  "partial",
  "Proved exactly for the void parts whose lookahead fails where their parse fails (C44_sequence_exactly and C44_choice_exactly are equivalences); refuted for void filters."
 ],
 "C26": [
  "partial",
  "ignore itself: fully. Inside a sequence: exactly for parsers whose lookahead agrees with parse, or without value (C26_exactly is an equivalence); refuted for filters."
 ],
 "C35": [
  "partial",
  "Proved exactly for the expressions in which the substituted name does not occur below a name of another character type: below such a name nothing is substituted (C35_exactly is an equivalence; refuted with a witness). A parser without the name is left alone in all cases."
 ],
 "C47": [
  "proved",
  "print() additionally runs past its 1025 character buffer of tabs from 205 nested parentheses or minus signs on (C47_print, C47_print_deep); it never runs past a vector."
 ],
 "C57": [
  "proved",
  "Choices: C57_choice for value types whose indices are recorded right, C57_every_choice for all."
 ]
}