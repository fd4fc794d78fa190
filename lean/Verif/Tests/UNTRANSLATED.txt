char-tests/modifiers/sub.cpp:40 [sub modifier / create substitutions] ASSERT_SUBSTITUTION_TYPE ( sub11 , "nam1" , ignore ) -- macro ASSERT_SUBSTITUTION_TYPE
char-tests/modifiers/sub.cpp:41 [sub modifier / create substitutions] ASSERT_SUBSTITUTION_TYPE ( sub21 , "nam2" , join ) -- macro ASSERT_SUBSTITUTION_TYPE
char-tests/modifiers/sub.cpp:42 [sub modifier / create substitutions] ASSERT_SUBSTITUTION_TYPE ( sub31 , "nam3" , name < "nam2" > ) -- macro ASSERT_SUBSTITUTION_TYPE
char-tests/modifiers/sub.cpp:43 [sub modifier / create substitutions] ASSERT_SUBSTITUTION_TYPE ( sub41 , "nam4" , exactly < 2 > ) -- macro ASSERT_SUBSTITUTION_TYPE
char-tests/modifiers/sub.cpp:44 [sub modifier / create substitutions] ASSERT_SUBSTITUTION_TYPE ( sub12 , "nam1" , join ) -- macro ASSERT_SUBSTITUTION_TYPE
char-tests/modifiers/sub.cpp:45 [sub modifier / create substitutions] ASSERT_SUBSTITUTION_TYPE ( sub22 , "nam2" , ignore ) -- macro ASSERT_SUBSTITUTION_TYPE
char-tests/modifiers/sub.cpp:46 [sub modifier / create substitutions] ASSERT_SUBSTITUTION_TYPE ( sub32 , "nam3" , exactly < 2 > ) -- macro ASSERT_SUBSTITUTION_TYPE
char-tests/modifiers/sub.cpp:47 [sub modifier / create substitutions] ASSERT_SUBSTITUTION_TYPE ( sub42 , "nam4" , name < "nam2" > ) -- macro ASSERT_SUBSTITUTION_TYPE
char-tests/modifiers/sub.cpp:49 [sub modifier / create substitutions] ASSERT_SUBSTITUTION_SAME_NAME ( sub11 , sub12 ) -- macro ASSERT_SUBSTITUTION_SAME_NAME
char-tests/modifiers/sub.cpp:50 [sub modifier / create substitutions] ASSERT_SUBSTITUTION_SAME_NAME ( sub21 , sub22 ) -- macro ASSERT_SUBSTITUTION_SAME_NAME
char-tests/modifiers/sub.cpp:51 [sub modifier / create substitutions] ASSERT_SUBSTITUTION_SAME_NAME ( sub31 , sub32 ) -- macro ASSERT_SUBSTITUTION_SAME_NAME
char-tests/modifiers/sub.cpp:52 [sub modifier / create substitutions] ASSERT_SUBSTITUTION_SAME_NAME ( sub41 , sub42 ) -- macro ASSERT_SUBSTITUTION_SAME_NAME
char-tests/operators/epsilon.cpp:33 [epsilon operator / eps | P] ASSERT ( ( not choice_operable < eps , any1 > ) , "The expression `eps | any1` compiled, but it should not" ) -- macro ASSERT
char-tests/operators/epsilon.cpp:34 [epsilon operator / eps | P] ASSERT ( ( not choice_operable < eps , any2 > ) , "The expression `eps | any2` compiled, but it should not" ) -- macro ASSERT
char-tests/operators/epsilon.cpp:35 [epsilon operator / eps | P] ASSERT ( ( not choice_operable < eps , any3 > ) , "The expression `eps | any3` compiled, but it should not" ) -- macro ASSERT
char-tests/parsers/exactly_parser.cpp:41 [exactly_parser / Constructibility] ASSERT_PARSER_NOT_CONSTRUCTIBLE ( exactly_parser , Any1 , integral_constant < 0 > ) -- size of another type
char-tests/parsers/exactly_parser.cpp:42 [exactly_parser / Constructibility] ASSERT_PARSER_NOT_CONSTRUCTIBLE ( exactly_parser , Any1 , integral_constant < 1 > ) -- size of another type
char-tests/parsers/exactly_parser.cpp:43 [exactly_parser / Constructibility] ASSERT_PARSER_NOT_CONSTRUCTIBLE ( exactly_parser , Any1 , integral_constant < 2 > ) -- size of another type
char-tests/types/result.cpp:15 [result / result_of result<void>] ASSERT_CONCEPT ( result_of , R , void , value_type ) -- macro ASSERT_CONCEPT
char-tests/types/result.cpp:16 [result / result_of result<void>] ASSERT_NOT_CONCEPT ( result_of , R , int , value_type ) -- macro ASSERT_NOT_CONCEPT
char-tests/types/result.cpp:17 [result / result_of result<void>] ASSERT_NOT_CONCEPT ( result_of , R , std::pair < int , double > , value_type ) -- macro ASSERT_NOT_CONCEPT
char-tests/types/result.cpp:18 [result / result_of result<void>] ASSERT_NOT_CONCEPT ( result_of , R , std::string , value_type ) -- macro ASSERT_NOT_CONCEPT
char-tests/types/result.cpp:19 [result / result_of result<void>] ASSERT_NOT_CONCEPT ( result_of , R , std::vector < int > , value_type ) -- macro ASSERT_NOT_CONCEPT
char-tests/types/result.cpp:20 [result / result_of result<void>] ASSERT_NOT_CONCEPT ( result_of , R , std::unique_ptr < int > , value_type ) -- macro ASSERT_NOT_CONCEPT
char-tests/types/result.cpp:21 [result / result_of result<void>] ASSERT_NOT_CONCEPT ( result_of , R , MoveOnlyWrapper < int > , value_type ) -- macro ASSERT_NOT_CONCEPT
char-tests/types/result.cpp:22 [result / result_of result<void>] ASSERT_NOT_CONCEPT ( result_of , R , CopyOnlyWrapper < int > , value_type ) -- macro ASSERT_NOT_CONCEPT
char-tests/types/result.cpp:29 [result / result_of result<int>] ASSERT_NOT_CONCEPT ( result_of , R , void , value_type ) -- macro ASSERT_NOT_CONCEPT
char-tests/types/result.cpp:30 [result / result_of result<int>] ASSERT_CONCEPT ( result_of , R , int , value_type ) -- macro ASSERT_CONCEPT
char-tests/types/result.cpp:31 [result / result_of result<int>] ASSERT_NOT_CONCEPT ( result_of , R , std::pair < int , double > , value_type ) -- macro ASSERT_NOT_CONCEPT
char-tests/types/result.cpp:32 [result / result_of result<int>] ASSERT_NOT_CONCEPT ( result_of , R , std::string , value_type ) -- macro ASSERT_NOT_CONCEPT
char-tests/types/result.cpp:33 [result / result_of result<int>] ASSERT_NOT_CONCEPT ( result_of , R , std::vector < int > , value_type ) -- macro ASSERT_NOT_CONCEPT
char-tests/types/result.cpp:34 [result / result_of result<int>] ASSERT_NOT_CONCEPT ( result_of , R , std::unique_ptr < int > , value_type ) -- macro ASSERT_NOT_CONCEPT
char-tests/types/result.cpp:35 [result / result_of result<int>] ASSERT_NOT_CONCEPT ( result_of , R , MoveOnlyWrapper < int > , value_type ) -- macro ASSERT_NOT_CONCEPT
char-tests/types/result.cpp:36 [result / result_of result<int>] ASSERT_NOT_CONCEPT ( result_of , R , CopyOnlyWrapper < int > , value_type ) -- macro ASSERT_NOT_CONCEPT
char-tests/types/result.cpp:38 [result / result_of result<int>] ASSERT_NOT_CONCEPT ( result_of , R , double , value_type ) -- macro ASSERT_NOT_CONCEPT
char-tests/types/result.cpp:39 [result / result_of result<int>] ASSERT_NOT_CONCEPT ( result_of , R , std::pair < double , int > , value_type ) -- macro ASSERT_NOT_CONCEPT
char-tests/types/result.cpp:40 [result / result_of result<int>] ASSERT_NOT_CONCEPT ( result_of , R , std::wstring , value_type ) -- macro ASSERT_NOT_CONCEPT
char-tests/types/result.cpp:41 [result / result_of result<int>] ASSERT_NOT_CONCEPT ( result_of , R , std::vector < long > , value_type ) -- macro ASSERT_NOT_CONCEPT
char-tests/types/result.cpp:42 [result / result_of result<int>] ASSERT_NOT_CONCEPT ( result_of , R , std::unique_ptr < long > , value_type ) -- macro ASSERT_NOT_CONCEPT
char-tests/types/result.cpp:43 [result / result_of result<int>] ASSERT_NOT_CONCEPT ( result_of , R , MoveOnlyWrapper < double > , value_type ) -- macro ASSERT_NOT_CONCEPT
char-tests/types/result.cpp:44 [result / result_of result<int>] ASSERT_NOT_CONCEPT ( result_of , R , CopyOnlyWrapper < double > , value_type ) -- macro ASSERT_NOT_CONCEPT
char-tests/types/result.cpp:46 [result / result_of result<int>] ASSERT_NOT_CONCEPT ( result_of , R , int & , value_type ) -- macro ASSERT_NOT_CONCEPT
char-tests/types/result.cpp:47 [result / result_of result<int>] ASSERT_NOT_CONCEPT ( result_of , R , int && , value_type ) -- macro ASSERT_NOT_CONCEPT
char-tests/types/result.cpp:48 [result / result_of result<int>] ASSERT_NOT_CONCEPT ( result_of , R , const int & , value_type ) -- macro ASSERT_NOT_CONCEPT
char-tests/types/result.cpp:49 [result / result_of result<int>] ASSERT_NOT_CONCEPT ( result_of , R , const int && , value_type ) -- macro ASSERT_NOT_CONCEPT
char-tests/types/result.cpp:56 [result / result_of result<std::pair>] ASSERT_NOT_CONCEPT ( result_of , R , void , value_type ) -- macro ASSERT_NOT_CONCEPT
char-tests/types/result.cpp:57 [result / result_of result<std::pair>] ASSERT_NOT_CONCEPT ( result_of , R , int , value_type ) -- macro ASSERT_NOT_CONCEPT
char-tests/types/result.cpp:58 [result / result_of result<std::pair>] ASSERT_CONCEPT ( result_of , R , std::pair < int , double > , value_type ) -- macro ASSERT_CONCEPT
char-tests/types/result.cpp:59 [result / result_of result<std::pair>] ASSERT_NOT_CONCEPT ( result_of , R , std::string , value_type ) -- macro ASSERT_NOT_CONCEPT
char-tests/types/result.cpp:60 [result / result_of result<std::pair>] ASSERT_NOT_CONCEPT ( result_of , R , std::vector < int > , value_type ) -- macro ASSERT_NOT_CONCEPT
char-tests/types/result.cpp:61 [result / result_of result<std::pair>] ASSERT_NOT_CONCEPT ( result_of , R , std::unique_ptr < int > , value_type ) -- macro ASSERT_NOT_CONCEPT
char-tests/types/result.cpp:62 [result / result_of result<std::pair>] ASSERT_NOT_CONCEPT ( result_of , R , MoveOnlyWrapper < int > , value_type ) -- macro ASSERT_NOT_CONCEPT
char-tests/types/result.cpp:63 [result / result_of result<std::pair>] ASSERT_NOT_CONCEPT ( result_of , R , CopyOnlyWrapper < int > , value_type ) -- macro ASSERT_NOT_CONCEPT
char-tests/types/result.cpp:65 [result / result_of result<std::pair>] ASSERT_NOT_CONCEPT ( result_of , R , double , value_type ) -- macro ASSERT_NOT_CONCEPT
char-tests/types/result.cpp:66 [result / result_of result<std::pair>] ASSERT_NOT_CONCEPT ( result_of , R , std::pair < double , int > , value_type ) -- macro ASSERT_NOT_CONCEPT
char-tests/types/result.cpp:67 [result / result_of result<std::pair>] ASSERT_NOT_CONCEPT ( result_of , R , std::wstring , value_type ) -- macro ASSERT_NOT_CONCEPT
char-tests/types/result.cpp:68 [result / result_of result<std::pair>] ASSERT_NOT_CONCEPT ( result_of , R , std::vector < long > , value_type ) -- macro ASSERT_NOT_CONCEPT
char-tests/types/result.cpp:69 [result / result_of result<std::pair>] ASSERT_NOT_CONCEPT ( result_of , R , std::unique_ptr < long > , value_type ) -- macro ASSERT_NOT_CONCEPT
char-tests/types/result.cpp:70 [result / result_of result<std::pair>] ASSERT_NOT_CONCEPT ( result_of , R , MoveOnlyWrapper < double > , value_type ) -- macro ASSERT_NOT_CONCEPT
char-tests/types/result.cpp:71 [result / result_of result<std::pair>] ASSERT_NOT_CONCEPT ( result_of , R , CopyOnlyWrapper < double > , value_type ) -- macro ASSERT_NOT_CONCEPT
char-tests/types/result.cpp:73 [result / result_of result<std::pair>] ASSERT_NOT_CONCEPT ( result_of , R , std::pair < int , double > & , value_type ) -- macro ASSERT_NOT_CONCEPT
char-tests/types/result.cpp:74 [result / result_of result<std::pair>] ASSERT_NOT_CONCEPT ( result_of , R , std::pair < int , double > && , value_type ) -- macro ASSERT_NOT_CONCEPT
char-tests/types/result.cpp:75 [result / result_of result<std::pair>] ASSERT_NOT_CONCEPT ( result_of , R , const std::pair < int , double > & , value_type ) -- macro ASSERT_NOT_CONCEPT
char-tests/types/result.cpp:76 [result / result_of result<std::pair>] ASSERT_NOT_CONCEPT ( result_of , R , const std::pair < int , double > && , value_type ) -- macro ASSERT_NOT_CONCEPT
char-tests/types/result.cpp:83 [result / result_of result<std::string>] ASSERT_NOT_CONCEPT ( result_of , R , void , value_type ) -- macro ASSERT_NOT_CONCEPT
char-tests/types/result.cpp:84 [result / result_of result<std::string>] ASSERT_NOT_CONCEPT ( result_of , R , int , value_type ) -- macro ASSERT_NOT_CONCEPT
char-tests/types/result.cpp:85 [result / result_of result<std::string>] ASSERT_NOT_CONCEPT ( result_of , R , std::pair < int , double > , value_type ) -- macro ASSERT_NOT_CONCEPT
char-tests/types/result.cpp:86 [result / result_of result<std::string>] ASSERT_CONCEPT ( result_of , R , std::string , value_type ) -- macro ASSERT_CONCEPT
char-tests/types/result.cpp:87 [result / result_of result<std::string>] ASSERT_NOT_CONCEPT ( result_of , R , std::vector < int > , value_type ) -- macro ASSERT_NOT_CONCEPT
char-tests/types/result.cpp:88 [result / result_of result<std::string>] ASSERT_NOT_CONCEPT ( result_of , R , std::unique_ptr < int > , value_type ) -- macro ASSERT_NOT_CONCEPT
char-tests/types/result.cpp:89 [result / result_of result<std::string>] ASSERT_NOT_CONCEPT ( result_of , R , MoveOnlyWrapper < int > , value_type ) -- macro ASSERT_NOT_CONCEPT
char-tests/types/result.cpp:90 [result / result_of result<std::string>] ASSERT_NOT_CONCEPT ( result_of , R , CopyOnlyWrapper < int > , value_type ) -- macro ASSERT_NOT_CONCEPT
char-tests/types/result.cpp:92 [result / result_of result<std::string>] ASSERT_NOT_CONCEPT ( result_of , R , double , value_type ) -- macro ASSERT_NOT_CONCEPT
char-tests/types/result.cpp:93 [result / result_of result<std::string>] ASSERT_NOT_CONCEPT ( result_of , R , std::pair < double , int > , value_type ) -- macro ASSERT_NOT_CONCEPT
char-tests/types/result.cpp:94 [result / result_of result<std::string>] ASSERT_NOT_CONCEPT ( result_of , R , std::wstring , value_type ) -- macro ASSERT_NOT_CONCEPT
char-tests/types/result.cpp:95 [result / result_of result<std::string>] ASSERT_NOT_CONCEPT ( result_of , R , std::vector < long > , value_type ) -- macro ASSERT_NOT_CONCEPT
char-tests/types/result.cpp:96 [result / result_of result<std::string>] ASSERT_NOT_CONCEPT ( result_of , R , std::unique_ptr < long > , value_type ) -- macro ASSERT_NOT_CONCEPT
char-tests/types/result.cpp:97 [result / result_of result<std::string>] ASSERT_NOT_CONCEPT ( result_of , R , MoveOnlyWrapper < double > , value_type ) -- macro ASSERT_NOT_CONCEPT
char-tests/types/result.cpp:98 [result / result_of result<std::string>] ASSERT_NOT_CONCEPT ( result_of , R , CopyOnlyWrapper < double > , value_type ) -- macro ASSERT_NOT_CONCEPT
char-tests/types/result.cpp:100 [result / result_of result<std::string>] ASSERT_NOT_CONCEPT ( result_of , R , std::string & , value_type ) -- macro ASSERT_NOT_CONCEPT
char-tests/types/result.cpp:101 [result / result_of result<std::string>] ASSERT_NOT_CONCEPT ( result_of , R , std::string && , value_type ) -- macro ASSERT_NOT_CONCEPT
char-tests/types/result.cpp:102 [result / result_of result<std::string>] ASSERT_NOT_CONCEPT ( result_of , R , const std::string & , value_type ) -- macro ASSERT_NOT_CONCEPT
char-tests/types/result.cpp:103 [result / result_of result<std::string>] ASSERT_NOT_CONCEPT ( result_of , R , const std::string && , value_type ) -- macro ASSERT_NOT_CONCEPT
char-tests/types/result.cpp:110 [result / result_of result<std::vector>] ASSERT_NOT_CONCEPT ( result_of , R , void , value_type ) -- macro ASSERT_NOT_CONCEPT
char-tests/types/result.cpp:111 [result / result_of result<std::vector>] ASSERT_NOT_CONCEPT ( result_of , R , int , value_type ) -- macro ASSERT_NOT_CONCEPT
char-tests/types/result.cpp:112 [result / result_of result<std::vector>] ASSERT_NOT_CONCEPT ( result_of , R , std::pair < int , double > , value_type ) -- macro ASSERT_NOT_CONCEPT
char-tests/types/result.cpp:113 [result / result_of result<std::vector>] ASSERT_NOT_CONCEPT ( result_of , R , std::string , value_type ) -- macro ASSERT_NOT_CONCEPT
char-tests/types/result.cpp:114 [result / result_of result<std::vector>] ASSERT_CONCEPT ( result_of , R , std::vector < int > , value_type ) -- macro ASSERT_CONCEPT
char-tests/types/result.cpp:115 [result / result_of result<std::vector>] ASSERT_NOT_CONCEPT ( result_of , R , std::unique_ptr < int > , value_type ) -- macro ASSERT_NOT_CONCEPT
char-tests/types/result.cpp:116 [result / result_of result<std::vector>] ASSERT_NOT_CONCEPT ( result_of , R , MoveOnlyWrapper < int > , value_type ) -- macro ASSERT_NOT_CONCEPT
char-tests/types/result.cpp:117 [result / result_of result<std::vector>] ASSERT_NOT_CONCEPT ( result_of , R , CopyOnlyWrapper < int > , value_type ) -- macro ASSERT_NOT_CONCEPT
char-tests/types/result.cpp:119 [result / result_of result<std::vector>] ASSERT_NOT_CONCEPT ( result_of , R , double , value_type ) -- macro ASSERT_NOT_CONCEPT
char-tests/types/result.cpp:120 [result / result_of result<std::vector>] ASSERT_NOT_CONCEPT ( result_of , R , std::pair < double , int > , value_type ) -- macro ASSERT_NOT_CONCEPT
char-tests/types/result.cpp:121 [result / result_of result<std::vector>] ASSERT_NOT_CONCEPT ( result_of , R , std::wstring , value_type ) -- macro ASSERT_NOT_CONCEPT
char-tests/types/result.cpp:122 [result / result_of result<std::vector>] ASSERT_NOT_CONCEPT ( result_of , R , std::vector < long > , value_type ) -- macro ASSERT_NOT_CONCEPT
char-tests/types/result.cpp:123 [result / result_of result<std::vector>] ASSERT_NOT_CONCEPT ( result_of , R , std::unique_ptr < long > , value_type ) -- macro ASSERT_NOT_CONCEPT
char-tests/types/result.cpp:124 [result / result_of result<std::vector>] ASSERT_NOT_CONCEPT ( result_of , R , MoveOnlyWrapper < double > , value_type ) -- macro ASSERT_NOT_CONCEPT
char-tests/types/result.cpp:125 [result / result_of result<std::vector>] ASSERT_NOT_CONCEPT ( result_of , R , CopyOnlyWrapper < double > , value_type ) -- macro ASSERT_NOT_CONCEPT
char-tests/types/result.cpp:127 [result / result_of result<std::vector>] ASSERT_NOT_CONCEPT ( result_of , R , std::vector < int > & , value_type ) -- macro ASSERT_NOT_CONCEPT
char-tests/types/result.cpp:128 [result / result_of result<std::vector>] ASSERT_NOT_CONCEPT ( result_of , R , std::vector < int > && , value_type ) -- macro ASSERT_NOT_CONCEPT
char-tests/types/result.cpp:129 [result / result_of result<std::vector>] ASSERT_NOT_CONCEPT ( result_of , R , const std::vector < int > & , value_type ) -- macro ASSERT_NOT_CONCEPT
char-tests/types/result.cpp:130 [result / result_of result<std::vector>] ASSERT_NOT_CONCEPT ( result_of , R , const std::vector < int > && , value_type ) -- macro ASSERT_NOT_CONCEPT
char-tests/types/result.cpp:137 [result / result_of result<std::unique_ptr>] ASSERT_NOT_CONCEPT ( result_of , R , void , value_type ) -- macro ASSERT_NOT_CONCEPT
char-tests/types/result.cpp:138 [result / result_of result<std::unique_ptr>] ASSERT_NOT_CONCEPT ( result_of , R , int , value_type ) -- macro ASSERT_NOT_CONCEPT
char-tests/types/result.cpp:139 [result / result_of result<std::unique_ptr>] ASSERT_NOT_CONCEPT ( result_of , R , std::pair < int , double > , value_type ) -- macro ASSERT_NOT_CONCEPT
char-tests/types/result.cpp:140 [result / result_of result<std::unique_ptr>] ASSERT_NOT_CONCEPT ( result_of , R , std::string , value_type ) -- macro ASSERT_NOT_CONCEPT
char-tests/types/result.cpp:141 [result / result_of result<std::unique_ptr>] ASSERT_NOT_CONCEPT ( result_of , R , std::vector < int > , value_type ) -- macro ASSERT_NOT_CONCEPT
char-tests/types/result.cpp:142 [result / result_of result<std::unique_ptr>] ASSERT_CONCEPT ( result_of , R , std::unique_ptr < int > , value_type ) -- macro ASSERT_CONCEPT
char-tests/types/result.cpp:143 [result / result_of result<std::unique_ptr>] ASSERT_NOT_CONCEPT ( result_of , R , MoveOnlyWrapper < int > , value_type ) -- macro ASSERT_NOT_CONCEPT
char-tests/types/result.cpp:144 [result / result_of result<std::unique_ptr>] ASSERT_NOT_CONCEPT ( result_of , R , CopyOnlyWrapper < int > , value_type ) -- macro ASSERT_NOT_CONCEPT
char-tests/types/result.cpp:146 [result / result_of result<std::unique_ptr>] ASSERT_NOT_CONCEPT ( result_of , R , double , value_type ) -- macro ASSERT_NOT_CONCEPT
char-tests/types/result.cpp:147 [result / result_of result<std::unique_ptr>] ASSERT_NOT_CONCEPT ( result_of , R , std::pair < double , int > , value_type ) -- macro ASSERT_NOT_CONCEPT
char-tests/types/result.cpp:148 [result / result_of result<std::unique_ptr>] ASSERT_NOT_CONCEPT ( result_of , R , std::wstring , value_type ) -- macro ASSERT_NOT_CONCEPT
char-tests/types/result.cpp:149 [result / result_of result<std::unique_ptr>] ASSERT_NOT_CONCEPT ( result_of , R , std::vector < long > , value_type ) -- macro ASSERT_NOT_CONCEPT
char-tests/types/result.cpp:150 [result / result_of result<std::unique_ptr>] ASSERT_NOT_CONCEPT ( result_of , R , std::unique_ptr < long > , value_type ) -- macro ASSERT_NOT_CONCEPT
char-tests/types/result.cpp:151 [result / result_of result<std::unique_ptr>] ASSERT_NOT_CONCEPT ( result_of , R , MoveOnlyWrapper < double > , value_type ) -- macro ASSERT_NOT_CONCEPT
char-tests/types/result.cpp:152 [result / result_of result<std::unique_ptr>] ASSERT_NOT_CONCEPT ( result_of , R , CopyOnlyWrapper < double > , value_type ) -- macro ASSERT_NOT_CONCEPT
char-tests/types/result.cpp:154 [result / result_of result<std::unique_ptr>] ASSERT_NOT_CONCEPT ( result_of , R , std::unique_ptr < int > & , value_type ) -- macro ASSERT_NOT_CONCEPT
char-tests/types/result.cpp:155 [result / result_of result<std::unique_ptr>] ASSERT_NOT_CONCEPT ( result_of , R , std::unique_ptr < int > && , value_type ) -- macro ASSERT_NOT_CONCEPT
char-tests/types/result.cpp:156 [result / result_of result<std::unique_ptr>] ASSERT_NOT_CONCEPT ( result_of , R , const std::unique_ptr < int > & , value_type ) -- macro ASSERT_NOT_CONCEPT
char-tests/types/result.cpp:157 [result / result_of result<std::unique_ptr>] ASSERT_NOT_CONCEPT ( result_of , R , const std::unique_ptr < int > && , value_type ) -- macro ASSERT_NOT_CONCEPT
char-tests/types/result.cpp:164 [result / result_of result<MoveOnlyWrapper>] ASSERT_NOT_CONCEPT ( result_of , R , void , value_type ) -- macro ASSERT_NOT_CONCEPT
char-tests/types/result.cpp:165 [result / result_of result<MoveOnlyWrapper>] ASSERT_NOT_CONCEPT ( result_of , R , int , value_type ) -- macro ASSERT_NOT_CONCEPT
char-tests/types/result.cpp:166 [result / result_of result<MoveOnlyWrapper>] ASSERT_NOT_CONCEPT ( result_of , R , std::pair < int , double > , value_type ) -- macro ASSERT_NOT_CONCEPT
char-tests/types/result.cpp:167 [result / result_of result<MoveOnlyWrapper>] ASSERT_NOT_CONCEPT ( result_of , R , std::string , value_type ) -- macro ASSERT_NOT_CONCEPT
char-tests/types/result.cpp:168 [result / result_of result<MoveOnlyWrapper>] ASSERT_NOT_CONCEPT ( result_of , R , std::vector < int > , value_type ) -- macro ASSERT_NOT_CONCEPT
char-tests/types/result.cpp:169 [result / result_of result<MoveOnlyWrapper>] ASSERT_NOT_CONCEPT ( result_of , R , std::unique_ptr < int > , value_type ) -- macro ASSERT_NOT_CONCEPT
char-tests/types/result.cpp:170 [result / result_of result<MoveOnlyWrapper>] ASSERT_CONCEPT ( result_of , R , MoveOnlyWrapper < int > , value_type ) -- macro ASSERT_CONCEPT
char-tests/types/result.cpp:171 [result / result_of result<MoveOnlyWrapper>] ASSERT_NOT_CONCEPT ( result_of , R , CopyOnlyWrapper < int > , value_type ) -- macro ASSERT_NOT_CONCEPT
char-tests/types/result.cpp:173 [result / result_of result<MoveOnlyWrapper>] ASSERT_NOT_CONCEPT ( result_of , R , double , value_type ) -- macro ASSERT_NOT_CONCEPT
char-tests/types/result.cpp:174 [result / result_of result<MoveOnlyWrapper>] ASSERT_NOT_CONCEPT ( result_of , R , std::pair < double , int > , value_type ) -- macro ASSERT_NOT_CONCEPT
char-tests/types/result.cpp:175 [result / result_of result<MoveOnlyWrapper>] ASSERT_NOT_CONCEPT ( result_of , R , std::wstring , value_type ) -- macro ASSERT_NOT_CONCEPT
char-tests/types/result.cpp:176 [result / result_of result<MoveOnlyWrapper>] ASSERT_NOT_CONCEPT ( result_of , R , std::vector < long > , value_type ) -- macro ASSERT_NOT_CONCEPT
char-tests/types/result.cpp:177 [result / result_of result<MoveOnlyWrapper>] ASSERT_NOT_CONCEPT ( result_of , R , std::unique_ptr < long > , value_type ) -- macro ASSERT_NOT_CONCEPT
char-tests/types/result.cpp:178 [result / result_of result<MoveOnlyWrapper>] ASSERT_NOT_CONCEPT ( result_of , R , MoveOnlyWrapper < double > , value_type ) -- macro ASSERT_NOT_CONCEPT
char-tests/types/result.cpp:179 [result / result_of result<MoveOnlyWrapper>] ASSERT_NOT_CONCEPT ( result_of , R , CopyOnlyWrapper < double > , value_type ) -- macro ASSERT_NOT_CONCEPT
char-tests/types/result.cpp:181 [result / result_of result<MoveOnlyWrapper>] ASSERT_NOT_CONCEPT ( result_of , R , MoveOnlyWrapper < int > & , value_type ) -- macro ASSERT_NOT_CONCEPT
char-tests/types/result.cpp:182 [result / result_of result<MoveOnlyWrapper>] ASSERT_NOT_CONCEPT ( result_of , R , MoveOnlyWrapper < int > && , value_type ) -- macro ASSERT_NOT_CONCEPT
char-tests/types/result.cpp:183 [result / result_of result<MoveOnlyWrapper>] ASSERT_NOT_CONCEPT ( result_of , R , const MoveOnlyWrapper < int > & , value_type ) -- macro ASSERT_NOT_CONCEPT
char-tests/types/result.cpp:184 [result / result_of result<MoveOnlyWrapper>] ASSERT_NOT_CONCEPT ( result_of , R , const MoveOnlyWrapper < int > && , value_type ) -- macro ASSERT_NOT_CONCEPT
char-tests/types/result.cpp:191 [result / result_of result<CopyOnlyWrapper>] ASSERT_NOT_CONCEPT ( result_of , R , void , value_type ) -- macro ASSERT_NOT_CONCEPT
char-tests/types/result.cpp:192 [result / result_of result<CopyOnlyWrapper>] ASSERT_NOT_CONCEPT ( result_of , R , int , value_type ) -- macro ASSERT_NOT_CONCEPT
char-tests/types/result.cpp:193 [result / result_of result<CopyOnlyWrapper>] ASSERT_NOT_CONCEPT ( result_of , R , std::pair < int , double > , value_type ) -- macro ASSERT_NOT_CONCEPT
char-tests/types/result.cpp:194 [result / result_of result<CopyOnlyWrapper>] ASSERT_NOT_CONCEPT ( result_of , R , std::string , value_type ) -- macro ASSERT_NOT_CONCEPT
char-tests/types/result.cpp:195 [result / result_of result<CopyOnlyWrapper>] ASSERT_NOT_CONCEPT ( result_of , R , std::vector < int > , value_type ) -- macro ASSERT_NOT_CONCEPT
char-tests/types/result.cpp:196 [result / result_of result<CopyOnlyWrapper>] ASSERT_NOT_CONCEPT ( result_of , R , std::unique_ptr < int > , value_type ) -- macro ASSERT_NOT_CONCEPT
char-tests/types/result.cpp:197 [result / result_of result<CopyOnlyWrapper>] ASSERT_NOT_CONCEPT ( result_of , R , MoveOnlyWrapper < int > , value_type ) -- macro ASSERT_NOT_CONCEPT
char-tests/types/result.cpp:198 [result / result_of result<CopyOnlyWrapper>] ASSERT_CONCEPT ( result_of , R , CopyOnlyWrapper < int > , value_type ) -- macro ASSERT_CONCEPT
char-tests/types/result.cpp:200 [result / result_of result<CopyOnlyWrapper>] ASSERT_NOT_CONCEPT ( result_of , R , double , value_type ) -- macro ASSERT_NOT_CONCEPT
char-tests/types/result.cpp:201 [result / result_of result<CopyOnlyWrapper>] ASSERT_NOT_CONCEPT ( result_of , R , std::pair < double , int > , value_type ) -- macro ASSERT_NOT_CONCEPT
char-tests/types/result.cpp:202 [result / result_of result<CopyOnlyWrapper>] ASSERT_NOT_CONCEPT ( result_of , R , std::wstring , value_type ) -- macro ASSERT_NOT_CONCEPT
char-tests/types/result.cpp:203 [result / result_of result<CopyOnlyWrapper>] ASSERT_NOT_CONCEPT ( result_of , R , std::vector < long > , value_type ) -- macro ASSERT_NOT_CONCEPT
char-tests/types/result.cpp:204 [result / result_of result<CopyOnlyWrapper>] ASSERT_NOT_CONCEPT ( result_of , R , std::unique_ptr < long > , value_type ) -- macro ASSERT_NOT_CONCEPT
char-tests/types/result.cpp:205 [result / result_of result<CopyOnlyWrapper>] ASSERT_NOT_CONCEPT ( result_of , R , MoveOnlyWrapper < double > , value_type ) -- macro ASSERT_NOT_CONCEPT
char-tests/types/result.cpp:206 [result / result_of result<CopyOnlyWrapper>] ASSERT_NOT_CONCEPT ( result_of , R , CopyOnlyWrapper < double > , value_type ) -- macro ASSERT_NOT_CONCEPT
char-tests/types/result.cpp:208 [result / result_of result<CopyOnlyWrapper>] ASSERT_NOT_CONCEPT ( result_of , R , CopyOnlyWrapper < int > & , value_type ) -- macro ASSERT_NOT_CONCEPT
char-tests/types/result.cpp:209 [result / result_of result<CopyOnlyWrapper>] ASSERT_NOT_CONCEPT ( result_of , R , CopyOnlyWrapper < int > && , value_type ) -- macro ASSERT_NOT_CONCEPT
char-tests/types/result.cpp:210 [result / result_of result<CopyOnlyWrapper>] ASSERT_NOT_CONCEPT ( result_of , R , const CopyOnlyWrapper < int > & , value_type ) -- macro ASSERT_NOT_CONCEPT
char-tests/types/result.cpp:211 [result / result_of result<CopyOnlyWrapper>] ASSERT_NOT_CONCEPT ( result_of , R , const CopyOnlyWrapper < int > && , value_type ) -- macro ASSERT_NOT_CONCEPT
non-char-tests/operators/epsilon.cpp:33 [epsilon operator / eps | P] ASSERT ( ( not choice_operable < eps , any1 > ) , "The expression `eps | any1` compiled, but it should not" ) -- macro ASSERT
non-char-tests/operators/epsilon.cpp:34 [epsilon operator / eps | P] ASSERT ( ( not choice_operable < eps , any2 > ) , "The expression `eps | any2` compiled, but it should not" ) -- macro ASSERT
non-char-tests/operators/epsilon.cpp:35 [epsilon operator / eps | P] ASSERT ( ( not choice_operable < eps , any3 > ) , "The expression `eps | any3` compiled, but it should not" ) -- macro ASSERT
non-char-tests/types/result.cpp:15 [result / result_of result<void>] ASSERT_CONCEPT ( result_of , R , void , value_type ) -- macro ASSERT_CONCEPT
non-char-tests/types/result.cpp:16 [result / result_of result<void>] ASSERT_NOT_CONCEPT ( result_of , R , int , value_type ) -- macro ASSERT_NOT_CONCEPT
non-char-tests/types/result.cpp:17 [result / result_of result<void>] ASSERT_NOT_CONCEPT ( result_of , R , std::pair < int , double > , value_type ) -- macro ASSERT_NOT_CONCEPT
non-char-tests/types/result.cpp:18 [result / result_of result<void>] ASSERT_NOT_CONCEPT ( result_of , R , std::string , value_type ) -- macro ASSERT_NOT_CONCEPT
non-char-tests/types/result.cpp:19 [result / result_of result<void>] ASSERT_NOT_CONCEPT ( result_of , R , std::vector < int > , value_type ) -- macro ASSERT_NOT_CONCEPT
non-char-tests/types/result.cpp:20 [result / result_of result<void>] ASSERT_NOT_CONCEPT ( result_of , R , std::unique_ptr < int > , value_type ) -- macro ASSERT_NOT_CONCEPT
non-char-tests/types/result.cpp:21 [result / result_of result<void>] ASSERT_NOT_CONCEPT ( result_of , R , MoveOnlyWrapper < int > , value_type ) -- macro ASSERT_NOT_CONCEPT
non-char-tests/types/result.cpp:22 [result / result_of result<void>] ASSERT_NOT_CONCEPT ( result_of , R , CopyOnlyWrapper < int > , value_type ) -- macro ASSERT_NOT_CONCEPT
non-char-tests/types/result.cpp:29 [result / result_of result<int>] ASSERT_NOT_CONCEPT ( result_of , R , void , value_type ) -- macro ASSERT_NOT_CONCEPT
non-char-tests/types/result.cpp:30 [result / result_of result<int>] ASSERT_CONCEPT ( result_of , R , int , value_type ) -- macro ASSERT_CONCEPT
non-char-tests/types/result.cpp:31 [result / result_of result<int>] ASSERT_NOT_CONCEPT ( result_of , R , std::pair < int , double > , value_type ) -- macro ASSERT_NOT_CONCEPT
non-char-tests/types/result.cpp:32 [result / result_of result<int>] ASSERT_NOT_CONCEPT ( result_of , R , std::string , value_type ) -- macro ASSERT_NOT_CONCEPT
non-char-tests/types/result.cpp:33 [result / result_of result<int>] ASSERT_NOT_CONCEPT ( result_of , R , std::vector < int > , value_type ) -- macro ASSERT_NOT_CONCEPT
non-char-tests/types/result.cpp:34 [result / result_of result<int>] ASSERT_NOT_CONCEPT ( result_of , R , std::unique_ptr < int > , value_type ) -- macro ASSERT_NOT_CONCEPT
non-char-tests/types/result.cpp:35 [result / result_of result<int>] ASSERT_NOT_CONCEPT ( result_of , R , MoveOnlyWrapper < int > , value_type ) -- macro ASSERT_NOT_CONCEPT
non-char-tests/types/result.cpp:36 [result / result_of result<int>] ASSERT_NOT_CONCEPT ( result_of , R , CopyOnlyWrapper < int > , value_type ) -- macro ASSERT_NOT_CONCEPT
non-char-tests/types/result.cpp:38 [result / result_of result<int>] ASSERT_NOT_CONCEPT ( result_of , R , double , value_type ) -- macro ASSERT_NOT_CONCEPT
non-char-tests/types/result.cpp:39 [result / result_of result<int>] ASSERT_NOT_CONCEPT ( result_of , R , std::pair < double , int > , value_type ) -- macro ASSERT_NOT_CONCEPT
non-char-tests/types/result.cpp:40 [result / result_of result<int>] ASSERT_NOT_CONCEPT ( result_of , R , std::wstring , value_type ) -- macro ASSERT_NOT_CONCEPT
non-char-tests/types/result.cpp:41 [result / result_of result<int>] ASSERT_NOT_CONCEPT ( result_of , R , std::vector < long > , value_type ) -- macro ASSERT_NOT_CONCEPT
non-char-tests/types/result.cpp:42 [result / result_of result<int>] ASSERT_NOT_CONCEPT ( result_of , R , std::unique_ptr < long > , value_type ) -- macro ASSERT_NOT_CONCEPT
non-char-tests/types/result.cpp:43 [result / result_of result<int>] ASSERT_NOT_CONCEPT ( result_of , R , MoveOnlyWrapper < double > , value_type ) -- macro ASSERT_NOT_CONCEPT
non-char-tests/types/result.cpp:44 [result / result_of result<int>] ASSERT_NOT_CONCEPT ( result_of , R , CopyOnlyWrapper < double > , value_type ) -- macro ASSERT_NOT_CONCEPT
non-char-tests/types/result.cpp:46 [result / result_of result<int>] ASSERT_NOT_CONCEPT ( result_of , R , int & , value_type ) -- macro ASSERT_NOT_CONCEPT
non-char-tests/types/result.cpp:47 [result / result_of result<int>] ASSERT_NOT_CONCEPT ( result_of , R , int && , value_type ) -- macro ASSERT_NOT_CONCEPT
non-char-tests/types/result.cpp:48 [result / result_of result<int>] ASSERT_NOT_CONCEPT ( result_of , R , const int & , value_type ) -- macro ASSERT_NOT_CONCEPT
non-char-tests/types/result.cpp:49 [result / result_of result<int>] ASSERT_NOT_CONCEPT ( result_of , R , const int && , value_type ) -- macro ASSERT_NOT_CONCEPT
non-char-tests/types/result.cpp:56 [result / result_of result<std::pair>] ASSERT_NOT_CONCEPT ( result_of , R , void , value_type ) -- macro ASSERT_NOT_CONCEPT
non-char-tests/types/result.cpp:57 [result / result_of result<std::pair>] ASSERT_NOT_CONCEPT ( result_of , R , int , value_type ) -- macro ASSERT_NOT_CONCEPT
non-char-tests/types/result.cpp:58 [result / result_of result<std::pair>] ASSERT_CONCEPT ( result_of , R , std::pair < int , double > , value_type ) -- macro ASSERT_CONCEPT
non-char-tests/types/result.cpp:59 [result / result_of result<std::pair>] ASSERT_NOT_CONCEPT ( result_of , R , std::string , value_type ) -- macro ASSERT_NOT_CONCEPT
non-char-tests/types/result.cpp:60 [result / result_of result<std::pair>] ASSERT_NOT_CONCEPT ( result_of , R , std::vector < int > , value_type ) -- macro ASSERT_NOT_CONCEPT
non-char-tests/types/result.cpp:61 [result / result_of result<std::pair>] ASSERT_NOT_CONCEPT ( result_of , R , std::unique_ptr < int > , value_type ) -- macro ASSERT_NOT_CONCEPT
non-char-tests/types/result.cpp:62 [result / result_of result<std::pair>] ASSERT_NOT_CONCEPT ( result_of , R , MoveOnlyWrapper < int > , value_type ) -- macro ASSERT_NOT_CONCEPT
non-char-tests/types/result.cpp:63 [result / result_of result<std::pair>] ASSERT_NOT_CONCEPT ( result_of , R , CopyOnlyWrapper < int > , value_type ) -- macro ASSERT_NOT_CONCEPT
non-char-tests/types/result.cpp:65 [result / result_of result<std::pair>] ASSERT_NOT_CONCEPT ( result_of , R , double , value_type ) -- macro ASSERT_NOT_CONCEPT
non-char-tests/types/result.cpp:66 [result / result_of result<std::pair>] ASSERT_NOT_CONCEPT ( result_of , R , std::pair < double , int > , value_type ) -- macro ASSERT_NOT_CONCEPT
non-char-tests/types/result.cpp:67 [result / result_of result<std::pair>] ASSERT_NOT_CONCEPT ( result_of , R , std::wstring , value_type ) -- macro ASSERT_NOT_CONCEPT
non-char-tests/types/result.cpp:68 [result / result_of result<std::pair>] ASSERT_NOT_CONCEPT ( result_of , R , std::vector < long > , value_type ) -- macro ASSERT_NOT_CONCEPT
non-char-tests/types/result.cpp:69 [result / result_of result<std::pair>] ASSERT_NOT_CONCEPT ( result_of , R , std::unique_ptr < long > , value_type ) -- macro ASSERT_NOT_CONCEPT
non-char-tests/types/result.cpp:70 [result / result_of result<std::pair>] ASSERT_NOT_CONCEPT ( result_of , R , MoveOnlyWrapper < double > , value_type ) -- macro ASSERT_NOT_CONCEPT
non-char-tests/types/result.cpp:71 [result / result_of result<std::pair>] ASSERT_NOT_CONCEPT ( result_of , R , CopyOnlyWrapper < double > , value_type ) -- macro ASSERT_NOT_CONCEPT
non-char-tests/types/result.cpp:73 [result / result_of result<std::pair>] ASSERT_NOT_CONCEPT ( result_of , R , std::pair < int , double > & , value_type ) -- macro ASSERT_NOT_CONCEPT
non-char-tests/types/result.cpp:74 [result / result_of result<std::pair>] ASSERT_NOT_CONCEPT ( result_of , R , std::pair < int , double > && , value_type ) -- macro ASSERT_NOT_CONCEPT
non-char-tests/types/result.cpp:75 [result / result_of result<std::pair>] ASSERT_NOT_CONCEPT ( result_of , R , const std::pair < int , double > & , value_type ) -- macro ASSERT_NOT_CONCEPT
non-char-tests/types/result.cpp:76 [result / result_of result<std::pair>] ASSERT_NOT_CONCEPT ( result_of , R , const std::pair < int , double > && , value_type ) -- macro ASSERT_NOT_CONCEPT
non-char-tests/types/result.cpp:83 [result / result_of result<std::string>] ASSERT_NOT_CONCEPT ( result_of , R , void , value_type ) -- macro ASSERT_NOT_CONCEPT
non-char-tests/types/result.cpp:84 [result / result_of result<std::string>] ASSERT_NOT_CONCEPT ( result_of , R , int , value_type ) -- macro ASSERT_NOT_CONCEPT
non-char-tests/types/result.cpp:85 [result / result_of result<std::string>] ASSERT_NOT_CONCEPT ( result_of , R , std::pair < int , double > , value_type ) -- macro ASSERT_NOT_CONCEPT
non-char-tests/types/result.cpp:86 [result / result_of result<std::string>] ASSERT_CONCEPT ( result_of , R , std::string , value_type ) -- macro ASSERT_CONCEPT
non-char-tests/types/result.cpp:87 [result / result_of result<std::string>] ASSERT_NOT_CONCEPT ( result_of , R , std::vector < int > , value_type ) -- macro ASSERT_NOT_CONCEPT
non-char-tests/types/result.cpp:88 [result / result_of result<std::string>] ASSERT_NOT_CONCEPT ( result_of , R , std::unique_ptr < int > , value_type ) -- macro ASSERT_NOT_CONCEPT
non-char-tests/types/result.cpp:89 [result / result_of result<std::string>] ASSERT_NOT_CONCEPT ( result_of , R , MoveOnlyWrapper < int > , value_type ) -- macro ASSERT_NOT_CONCEPT
non-char-tests/types/result.cpp:90 [result / result_of result<std::string>] ASSERT_NOT_CONCEPT ( result_of , R , CopyOnlyWrapper < int > , value_type ) -- macro ASSERT_NOT_CONCEPT
non-char-tests/types/result.cpp:92 [result / result_of result<std::string>] ASSERT_NOT_CONCEPT ( result_of , R , double , value_type ) -- macro ASSERT_NOT_CONCEPT
non-char-tests/types/result.cpp:93 [result / result_of result<std::string>] ASSERT_NOT_CONCEPT ( result_of , R , std::pair < double , int > , value_type ) -- macro ASSERT_NOT_CONCEPT
non-char-tests/types/result.cpp:94 [result / result_of result<std::string>] ASSERT_NOT_CONCEPT ( result_of , R , std::wstring , value_type ) -- macro ASSERT_NOT_CONCEPT
non-char-tests/types/result.cpp:95 [result / result_of result<std::string>] ASSERT_NOT_CONCEPT ( result_of , R , std::vector < long > , value_type ) -- macro ASSERT_NOT_CONCEPT
non-char-tests/types/result.cpp:96 [result / result_of result<std::string>] ASSERT_NOT_CONCEPT ( result_of , R , std::unique_ptr < long > , value_type ) -- macro ASSERT_NOT_CONCEPT
non-char-tests/types/result.cpp:97 [result / result_of result<std::string>] ASSERT_NOT_CONCEPT ( result_of , R , MoveOnlyWrapper < double > , value_type ) -- macro ASSERT_NOT_CONCEPT
non-char-tests/types/result.cpp:98 [result / result_of result<std::string>] ASSERT_NOT_CONCEPT ( result_of , R , CopyOnlyWrapper < double > , value_type ) -- macro ASSERT_NOT_CONCEPT
non-char-tests/types/result.cpp:100 [result / result_of result<std::string>] ASSERT_NOT_CONCEPT ( result_of , R , std::string & , value_type ) -- macro ASSERT_NOT_CONCEPT
non-char-tests/types/result.cpp:101 [result / result_of result<std::string>] ASSERT_NOT_CONCEPT ( result_of , R , std::string && , value_type ) -- macro ASSERT_NOT_CONCEPT
non-char-tests/types/result.cpp:102 [result / result_of result<std::string>] ASSERT_NOT_CONCEPT ( result_of , R , const std::string & , value_type ) -- macro ASSERT_NOT_CONCEPT
non-char-tests/types/result.cpp:103 [result / result_of result<std::string>] ASSERT_NOT_CONCEPT ( result_of , R , const std::string && , value_type ) -- macro ASSERT_NOT_CONCEPT
non-char-tests/types/result.cpp:110 [result / result_of result<std::vector>] ASSERT_NOT_CONCEPT ( result_of , R , void , value_type ) -- macro ASSERT_NOT_CONCEPT
non-char-tests/types/result.cpp:111 [result / result_of result<std::vector>] ASSERT_NOT_CONCEPT ( result_of , R , int , value_type ) -- macro ASSERT_NOT_CONCEPT
non-char-tests/types/result.cpp:112 [result / result_of result<std::vector>] ASSERT_NOT_CONCEPT ( result_of , R , std::pair < int , double > , value_type ) -- macro ASSERT_NOT_CONCEPT
non-char-tests/types/result.cpp:113 [result / result_of result<std::vector>] ASSERT_NOT_CONCEPT ( result_of , R , std::string , value_type ) -- macro ASSERT_NOT_CONCEPT
non-char-tests/types/result.cpp:114 [result / result_of result<std::vector>] ASSERT_CONCEPT ( result_of , R , std::vector < int > , value_type ) -- macro ASSERT_CONCEPT
non-char-tests/types/result.cpp:115 [result / result_of result<std::vector>] ASSERT_NOT_CONCEPT ( result_of , R , std::unique_ptr < int > , value_type ) -- macro ASSERT_NOT_CONCEPT
non-char-tests/types/result.cpp:116 [result / result_of result<std::vector>] ASSERT_NOT_CONCEPT ( result_of , R , MoveOnlyWrapper < int > , value_type ) -- macro ASSERT_NOT_CONCEPT
non-char-tests/types/result.cpp:117 [result / result_of result<std::vector>] ASSERT_NOT_CONCEPT ( result_of , R , CopyOnlyWrapper < int > , value_type ) -- macro ASSERT_NOT_CONCEPT
non-char-tests/types/result.cpp:119 [result / result_of result<std::vector>] ASSERT_NOT_CONCEPT ( result_of , R , double , value_type ) -- macro ASSERT_NOT_CONCEPT
non-char-tests/types/result.cpp:120 [result / result_of result<std::vector>] ASSERT_NOT_CONCEPT ( result_of , R , std::pair < double , int > , value_type ) -- macro ASSERT_NOT_CONCEPT
non-char-tests/types/result.cpp:121 [result / result_of result<std::vector>] ASSERT_NOT_CONCEPT ( result_of , R , std::wstring , value_type ) -- macro ASSERT_NOT_CONCEPT
non-char-tests/types/result.cpp:122 [result / result_of result<std::vector>] ASSERT_NOT_CONCEPT ( result_of , R , std::vector < long > , value_type ) -- macro ASSERT_NOT_CONCEPT
non-char-tests/types/result.cpp:123 [result / result_of result<std::vector>] ASSERT_NOT_CONCEPT ( result_of , R , std::unique_ptr < long > , value_type ) -- macro ASSERT_NOT_CONCEPT
non-char-tests/types/result.cpp:124 [result / result_of result<std::vector>] ASSERT_NOT_CONCEPT ( result_of , R , MoveOnlyWrapper < double > , value_type ) -- macro ASSERT_NOT_CONCEPT
non-char-tests/types/result.cpp:125 [result / result_of result<std::vector>] ASSERT_NOT_CONCEPT ( result_of , R , CopyOnlyWrapper < double > , value_type ) -- macro ASSERT_NOT_CONCEPT
non-char-tests/types/result.cpp:127 [result / result_of result<std::vector>] ASSERT_NOT_CONCEPT ( result_of , R , std::vector < int > & , value_type ) -- macro ASSERT_NOT_CONCEPT
non-char-tests/types/result.cpp:128 [result / result_of result<std::vector>] ASSERT_NOT_CONCEPT ( result_of , R , std::vector < int > && , value_type ) -- macro ASSERT_NOT_CONCEPT
non-char-tests/types/result.cpp:129 [result / result_of result<std::vector>] ASSERT_NOT_CONCEPT ( result_of , R , const std::vector < int > & , value_type ) -- macro ASSERT_NOT_CONCEPT
non-char-tests/types/result.cpp:130 [result / result_of result<std::vector>] ASSERT_NOT_CONCEPT ( result_of , R , const std::vector < int > && , value_type ) -- macro ASSERT_NOT_CONCEPT
non-char-tests/types/result.cpp:137 [result / result_of result<std::unique_ptr>] ASSERT_NOT_CONCEPT ( result_of , R , void , value_type ) -- macro ASSERT_NOT_CONCEPT
non-char-tests/types/result.cpp:138 [result / result_of result<std::unique_ptr>] ASSERT_NOT_CONCEPT ( result_of , R , int , value_type ) -- macro ASSERT_NOT_CONCEPT
non-char-tests/types/result.cpp:139 [result / result_of result<std::unique_ptr>] ASSERT_NOT_CONCEPT ( result_of , R , std::pair < int , double > , value_type ) -- macro ASSERT_NOT_CONCEPT
non-char-tests/types/result.cpp:140 [result / result_of result<std::unique_ptr>] ASSERT_NOT_CONCEPT ( result_of , R , std::string , value_type ) -- macro ASSERT_NOT_CONCEPT
non-char-tests/types/result.cpp:141 [result / result_of result<std::unique_ptr>] ASSERT_NOT_CONCEPT ( result_of , R , std::vector < int > , value_type ) -- macro ASSERT_NOT_CONCEPT
non-char-tests/types/result.cpp:142 [result / result_of result<std::unique_ptr>] ASSERT_CONCEPT ( result_of , R , std::unique_ptr < int > , value_type ) -- macro ASSERT_CONCEPT
non-char-tests/types/result.cpp:143 [result / result_of result<std::unique_ptr>] ASSERT_NOT_CONCEPT ( result_of , R , MoveOnlyWrapper < int > , value_type ) -- macro ASSERT_NOT_CONCEPT
non-char-tests/types/result.cpp:144 [result / result_of result<std::unique_ptr>] ASSERT_NOT_CONCEPT ( result_of , R , CopyOnlyWrapper < int > , value_type ) -- macro ASSERT_NOT_CONCEPT
non-char-tests/types/result.cpp:146 [result / result_of result<std::unique_ptr>] ASSERT_NOT_CONCEPT ( result_of , R , double , value_type ) -- macro ASSERT_NOT_CONCEPT
non-char-tests/types/result.cpp:147 [result / result_of result<std::unique_ptr>] ASSERT_NOT_CONCEPT ( result_of , R , std::pair < double , int > , value_type ) -- macro ASSERT_NOT_CONCEPT
non-char-tests/types/result.cpp:148 [result / result_of result<std::unique_ptr>] ASSERT_NOT_CONCEPT ( result_of , R , std::wstring , value_type ) -- macro ASSERT_NOT_CONCEPT
non-char-tests/types/result.cpp:149 [result / result_of result<std::unique_ptr>] ASSERT_NOT_CONCEPT ( result_of , R , std::vector < long > , value_type ) -- macro ASSERT_NOT_CONCEPT
non-char-tests/types/result.cpp:150 [result / result_of result<std::unique_ptr>] ASSERT_NOT_CONCEPT ( result_of , R , std::unique_ptr < long > , value_type ) -- macro ASSERT_NOT_CONCEPT
non-char-tests/types/result.cpp:151 [result / result_of result<std::unique_ptr>] ASSERT_NOT_CONCEPT ( result_of , R , MoveOnlyWrapper < double > , value_type ) -- macro ASSERT_NOT_CONCEPT
non-char-tests/types/result.cpp:152 [result / result_of result<std::unique_ptr>] ASSERT_NOT_CONCEPT ( result_of , R , CopyOnlyWrapper < double > , value_type ) -- macro ASSERT_NOT_CONCEPT
non-char-tests/types/result.cpp:154 [result / result_of result<std::unique_ptr>] ASSERT_NOT_CONCEPT ( result_of , R , std::unique_ptr < int > & , value_type ) -- macro ASSERT_NOT_CONCEPT
non-char-tests/types/result.cpp:155 [result / result_of result<std::unique_ptr>] ASSERT_NOT_CONCEPT ( result_of , R , std::unique_ptr < int > && , value_type ) -- macro ASSERT_NOT_CONCEPT
non-char-tests/types/result.cpp:156 [result / result_of result<std::unique_ptr>] ASSERT_NOT_CONCEPT ( result_of , R , const std::unique_ptr < int > & , value_type ) -- macro ASSERT_NOT_CONCEPT
non-char-tests/types/result.cpp:157 [result / result_of result<std::unique_ptr>] ASSERT_NOT_CONCEPT ( result_of , R , const std::unique_ptr < int > && , value_type ) -- macro ASSERT_NOT_CONCEPT
non-char-tests/types/result.cpp:164 [result / result_of result<MoveOnlyWrapper>] ASSERT_NOT_CONCEPT ( result_of , R , void , value_type ) -- macro ASSERT_NOT_CONCEPT
non-char-tests/types/result.cpp:165 [result / result_of result<MoveOnlyWrapper>] ASSERT_NOT_CONCEPT ( result_of , R , int , value_type ) -- macro ASSERT_NOT_CONCEPT
non-char-tests/types/result.cpp:166 [result / result_of result<MoveOnlyWrapper>] ASSERT_NOT_CONCEPT ( result_of , R , std::pair < int , double > , value_type ) -- macro ASSERT_NOT_CONCEPT
non-char-tests/types/result.cpp:167 [result / result_of result<MoveOnlyWrapper>] ASSERT_NOT_CONCEPT ( result_of , R , std::string , value_type ) -- macro ASSERT_NOT_CONCEPT
non-char-tests/types/result.cpp:168 [result / result_of result<MoveOnlyWrapper>] ASSERT_NOT_CONCEPT ( result_of , R , std::vector < int > , value_type ) -- macro ASSERT_NOT_CONCEPT
non-char-tests/types/result.cpp:169 [result / result_of result<MoveOnlyWrapper>] ASSERT_NOT_CONCEPT ( result_of , R , std::unique_ptr < int > , value_type ) -- macro ASSERT_NOT_CONCEPT
non-char-tests/types/result.cpp:170 [result / result_of result<MoveOnlyWrapper>] ASSERT_CONCEPT ( result_of , R , MoveOnlyWrapper < int > , value_type ) -- macro ASSERT_CONCEPT
non-char-tests/types/result.cpp:171 [result / result_of result<MoveOnlyWrapper>] ASSERT_NOT_CONCEPT ( result_of , R , CopyOnlyWrapper < int > , value_type ) -- macro ASSERT_NOT_CONCEPT
non-char-tests/types/result.cpp:173 [result / result_of result<MoveOnlyWrapper>] ASSERT_NOT_CONCEPT ( result_of , R , double , value_type ) -- macro ASSERT_NOT_CONCEPT
non-char-tests/types/result.cpp:174 [result / result_of result<MoveOnlyWrapper>] ASSERT_NOT_CONCEPT ( result_of , R , std::pair < double , int > , value_type ) -- macro ASSERT_NOT_CONCEPT
non-char-tests/types/result.cpp:175 [result / result_of result<MoveOnlyWrapper>] ASSERT_NOT_CONCEPT ( result_of , R , std::wstring , value_type ) -- macro ASSERT_NOT_CONCEPT
non-char-tests/types/result.cpp:176 [result / result_of result<MoveOnlyWrapper>] ASSERT_NOT_CONCEPT ( result_of , R , std::vector < long > , value_type ) -- macro ASSERT_NOT_CONCEPT
non-char-tests/types/result.cpp:177 [result / result_of result<MoveOnlyWrapper>] ASSERT_NOT_CONCEPT ( result_of , R , std::unique_ptr < long > , value_type ) -- macro ASSERT_NOT_CONCEPT
non-char-tests/types/result.cpp:178 [result / result_of result<MoveOnlyWrapper>] ASSERT_NOT_CONCEPT ( result_of , R , MoveOnlyWrapper < double > , value_type ) -- macro ASSERT_NOT_CONCEPT
non-char-tests/types/result.cpp:179 [result / result_of result<MoveOnlyWrapper>] ASSERT_NOT_CONCEPT ( result_of , R , CopyOnlyWrapper < double > , value_type ) -- macro ASSERT_NOT_CONCEPT
non-char-tests/types/result.cpp:181 [result / result_of result<MoveOnlyWrapper>] ASSERT_NOT_CONCEPT ( result_of , R , MoveOnlyWrapper < int > & , value_type ) -- macro ASSERT_NOT_CONCEPT
non-char-tests/types/result.cpp:182 [result / result_of result<MoveOnlyWrapper>] ASSERT_NOT_CONCEPT ( result_of , R , MoveOnlyWrapper < int > && , value_type ) -- macro ASSERT_NOT_CONCEPT
non-char-tests/types/result.cpp:183 [result / result_of result<MoveOnlyWrapper>] ASSERT_NOT_CONCEPT ( result_of , R , const MoveOnlyWrapper < int > & , value_type ) -- macro ASSERT_NOT_CONCEPT
non-char-tests/types/result.cpp:184 [result / result_of result<MoveOnlyWrapper>] ASSERT_NOT_CONCEPT ( result_of , R , const MoveOnlyWrapper < int > && , value_type ) -- macro ASSERT_NOT_CONCEPT
non-char-tests/types/result.cpp:191 [result / result_of result<CopyOnlyWrapper>] ASSERT_NOT_CONCEPT ( result_of , R , void , value_type ) -- macro ASSERT_NOT_CONCEPT
non-char-tests/types/result.cpp:192 [result / result_of result<CopyOnlyWrapper>] ASSERT_NOT_CONCEPT ( result_of , R , int , value_type ) -- macro ASSERT_NOT_CONCEPT
non-char-tests/types/result.cpp:193 [result / result_of result<CopyOnlyWrapper>] ASSERT_NOT_CONCEPT ( result_of , R , std::pair < int , double > , value_type ) -- macro ASSERT_NOT_CONCEPT
non-char-tests/types/result.cpp:194 [result / result_of result<CopyOnlyWrapper>] ASSERT_NOT_CONCEPT ( result_of , R , std::string , value_type ) -- macro ASSERT_NOT_CONCEPT
non-char-tests/types/result.cpp:195 [result / result_of result<CopyOnlyWrapper>] ASSERT_NOT_CONCEPT ( result_of , R , std::vector < int > , value_type ) -- macro ASSERT_NOT_CONCEPT
non-char-tests/types/result.cpp:196 [result / result_of result<CopyOnlyWrapper>] ASSERT_NOT_CONCEPT ( result_of , R , std::unique_ptr < int > , value_type ) -- macro ASSERT_NOT_CONCEPT
non-char-tests/types/result.cpp:197 [result / result_of result<CopyOnlyWrapper>] ASSERT_NOT_CONCEPT ( result_of , R , MoveOnlyWrapper < int > , value_type ) -- macro ASSERT_NOT_CONCEPT
non-char-tests/types/result.cpp:198 [result / result_of result<CopyOnlyWrapper>] ASSERT_CONCEPT ( result_of , R , CopyOnlyWrapper < int > , value_type ) -- macro ASSERT_CONCEPT
non-char-tests/types/result.cpp:200 [result / result_of result<CopyOnlyWrapper>] ASSERT_NOT_CONCEPT ( result_of , R , double , value_type ) -- macro ASSERT_NOT_CONCEPT
non-char-tests/types/result.cpp:201 [result / result_of result<CopyOnlyWrapper>] ASSERT_NOT_CONCEPT ( result_of , R , std::pair < double , int > , value_type ) -- macro ASSERT_NOT_CONCEPT
non-char-tests/types/result.cpp:202 [result / result_of result<CopyOnlyWrapper>] ASSERT_NOT_CONCEPT ( result_of , R , std::wstring , value_type ) -- macro ASSERT_NOT_CONCEPT
non-char-tests/types/result.cpp:203 [result / result_of result<CopyOnlyWrapper>] ASSERT_NOT_CONCEPT ( result_of , R , std::vector < long > , value_type ) -- macro ASSERT_NOT_CONCEPT
non-char-tests/types/result.cpp:204 [result / result_of result<CopyOnlyWrapper>] ASSERT_NOT_CONCEPT ( result_of , R , std::unique_ptr < long > , value_type ) -- macro ASSERT_NOT_CONCEPT
non-char-tests/types/result.cpp:205 [result / result_of result<CopyOnlyWrapper>] ASSERT_NOT_CONCEPT ( result_of , R , MoveOnlyWrapper < double > , value_type ) -- macro ASSERT_NOT_CONCEPT
non-char-tests/types/result.cpp:206 [result / result_of result<CopyOnlyWrapper>] ASSERT_NOT_CONCEPT ( result_of , R , CopyOnlyWrapper < double > , value_type ) -- macro ASSERT_NOT_CONCEPT
non-char-tests/types/result.cpp:208 [result / result_of result<CopyOnlyWrapper>] ASSERT_NOT_CONCEPT ( result_of , R , CopyOnlyWrapper < int > & , value_type ) -- macro ASSERT_NOT_CONCEPT
non-char-tests/types/result.cpp:209 [result / result_of result<CopyOnlyWrapper>] ASSERT_NOT_CONCEPT ( result_of , R , CopyOnlyWrapper < int > && , value_type ) -- macro ASSERT_NOT_CONCEPT
non-char-tests/types/result.cpp:210 [result / result_of result<CopyOnlyWrapper>] ASSERT_NOT_CONCEPT ( result_of , R , const CopyOnlyWrapper < int > & , value_type ) -- macro ASSERT_NOT_CONCEPT
non-char-tests/types/result.cpp:211 [result / result_of result<CopyOnlyWrapper>] ASSERT_NOT_CONCEPT ( result_of , R , const CopyOnlyWrapper < int > && , value_type ) -- macro ASSERT_NOT_CONCEPT
