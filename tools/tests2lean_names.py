# Names of the tests' own types and callbacks, and what they are in Verif/Tests/Check.lean.
TYPES = {
    'void': '.void', 'int': 'tInt', 'bool': 'tBool', 'std::size_t': 'tSize', 'char': 'tChar', 'std::nullptr_t': 'tNull',
    'Class1': 'tClass1', 'Class2': 'tClass2', 'Class3': 'tClass3', 'Class4': 'tClass4', 'Class5': 'tClass5', 'Sink': 'tSink',
    'wchar_t': 'tWchar', 'value_type': 'tChar',
}
SCALARS = ('int', 'bool', 'std::size_t', 'char', 'Class1')
CALLBACKS = {k: 'f_' + k for k in ('func1', 'func2', 'func3', 'func3_apply', 'func4', 'func4_apply', 'filter_func1',
    'filter_func2', 'filter_func3', 'filter_func3_apply', 'sink_func', 'true_filter')}
CUSTOMS = {'Cus1': 0, 'Cus2': 1}
ELEMS = {'A': '1', 'B': '2', 'C': '3', 'D': '4', 'X': '5', 'Y': '6', 'Z': '7', 'Question': '8', 'Com': '9', 'Space': '10', 'Dot': '11'}
OTHERS = {'char': ('wchar_t', 'int'), 'non-char': ('wchar_t', 'char')}
ASSERTERS = {}
FNS = {
    '[ ] ( ) { return 0 ; }': 'f_zero', '[ ] ( auto ) { return 0 ; }': 'f_zero1', '[ ] ( auto ) { }': 'f_unit1', '[ ] ( ) { }': 'f_unit',
    '[ ] ( ) { return true ; }': 'f_true', '[ ] ( auto ) { return true ; }': 'f_true1',
}
