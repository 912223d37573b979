import Verif.Hex

/-! Generated by tools/gen_files.py: verbatim copies of parts of files of /repo. -/

namespace Verif.Files.Big5

/-- tests/test_data/whatwg/big5_whatwg_test_decode_in.txt, part 1 -/
noncomputable def decodeIn0 : List Nat := hex! ""

/-- tests/test_data/whatwg/big5_whatwg_test_decode_out.txt, part 1 -/
noncomputable def decodeOut0 : List Nat := hex! ""

/-- tests/test_data/whatwg/big5_whatwg_test_encode_in.txt, part 1 -/
noncomputable def encodeIn0 : List Nat := hex! ""

/-- tests/test_data/whatwg/big5_whatwg_test_encode_out.txt, part 1 -/
noncomputable def encodeOut0 : List Nat := hex! ""

/-- tests/test_data/whatwg/big5_whatwg_test_decode_in.txt, part 2 -/
noncomputable def decodeIn1 : List Nat := hex! ""

/-- tests/test_data/whatwg/big5_whatwg_test_decode_out.txt, part 2 -/
noncomputable def decodeOut1 : List Nat := hex! ""

/-- tests/test_data/whatwg/big5_whatwg_test_encode_in.txt, part 2 -/
noncomputable def encodeIn1 : List Nat := hex! ""

/-- tests/test_data/whatwg/big5_whatwg_test_encode_out.txt, part 2 -/
noncomputable def encodeOut1 : List Nat := hex! ""

/-- tests/test_data/whatwg/big5_whatwg_test_decode_in.txt, part 3 -/
noncomputable def decodeIn2 : List Nat := hex! ""

/-- tests/test_data/whatwg/big5_whatwg_test_decode_out.txt, part 3 -/
noncomputable def decodeOut2 : List Nat := hex! ""

/-- tests/test_data/whatwg/big5_whatwg_test_encode_in.txt, part 3 -/
noncomputable def encodeIn2 : List Nat := hex! ""

/-- tests/test_data/whatwg/big5_whatwg_test_encode_out.txt, part 3 -/
noncomputable def encodeOut2 : List Nat := hex! ""

/-- tests/test_data/whatwg/big5_whatwg_test_decode_in.txt, part 4 -/
noncomputable def decodeIn3 : List Nat := hex! ""

/-- tests/test_data/whatwg/big5_whatwg_test_decode_out.txt, part 4 -/
noncomputable def decodeOut3 : List Nat := hex! ""

/-- tests/test_data/whatwg/big5_whatwg_test_encode_in.txt, part 4 -/
noncomputable def encodeIn3 : List Nat := hex! ""

/-- tests/test_data/whatwg/big5_whatwg_test_encode_out.txt, part 4 -/
noncomputable def encodeOut3 : List Nat := hex! ""

/-- tests/test_data/whatwg/big5_whatwg_test_decode_in.txt, part 5 -/
noncomputable def decodeIn4 : List Nat := hex! ""

/-- tests/test_data/whatwg/big5_whatwg_test_decode_out.txt, part 5 -/
noncomputable def decodeOut4 : List Nat := hex! ""

/-- tests/test_data/whatwg/big5_whatwg_test_encode_in.txt, part 5 -/
noncomputable def encodeIn4 : List Nat := hex! ""

/-- tests/test_data/whatwg/big5_whatwg_test_encode_out.txt, part 5 -/
noncomputable def encodeOut4 : List Nat := hex! ""

/-- tests/test_data/whatwg/big5_whatwg_test_decode_in.txt, part 6 -/
noncomputable def decodeIn5 : List Nat := hex! ""

/-- tests/test_data/whatwg/big5_whatwg_test_decode_out.txt, part 6 -/
noncomputable def decodeOut5 : List Nat := hex! ""

/-- tests/test_data/whatwg/big5_whatwg_test_encode_in.txt, part 6 -/
noncomputable def encodeIn5 : List Nat := hex! ""

/-- tests/test_data/whatwg/big5_whatwg_test_encode_out.txt, part 6 -/
noncomputable def encodeOut5 : List Nat := hex! ""

/-- tests/test_data/whatwg/big5_whatwg_test_decode_in.txt, part 7 -/
noncomputable def decodeIn6 : List Nat := hex! "87400A87410A87420A87430A87440A87450A87460A87470A87480A87490A874A0A874B0A874C0A874D0A874E0A874F0A
  87500A87510A87520A87530A87540A87550A87560A87570A87580A87590A875A0A875B0A875C0A875D0A875E0A875F0A
  87600A87610A87620A87630A87640A87650A87670A87680A87690A876A0A876B0A876C0A876D0A876E0A876F0A87700A
  87710A87720A87730A87740A87750A87760A87770A87780A87790A877A0A877B0A877C0A877D0A877E0A87A10A87A20A
  87A30A87A40A87A50A87A60A87A70A87A80A87A90A87AA0A87AB0A87AC0A87AD0A87AE0A87AF0A87B00A87B10A87B20A
  87B30A87B40A87B50A87B60A87B70A87B80A87B90A87BA0A87BB0A87BC0A87BD0A87BE0A87BF0A87C00A87C10A87C20A
  87C30A87C40A87C50A87C60A87C70A87C80A87C90A87CA0A87CB0A87CC0A87CD0A87CE0A87CF0A87D00A87D10A87D20A
  87D30A87D40A87D50A87D60A87D70A87D80A87D90A87DA0A87DB0A87DC0A87DD0A87DE0A87DF0A"

/-- tests/test_data/whatwg/big5_whatwg_test_decode_out.txt, part 7 -/
noncomputable def decodeOut6 : List Nat := hex! "E48FB00AE4B0B20AE498830AE496A60AE495B80AF0A789A70AE4B5B70AE496B30AF0A7B2B10AE4B3A20AF0A7B3850AE3
  AE950AE49CB60AE49D840AE4B1870AE4B1800AF0A48ABF0AF0A398970AF0A78D920AF0A6BA8B0AF0A783920AE4B1970A
  F0AA8D910AE49D8F0AE4979A0AE4B2850AF0A7B1AC0AE4B4870AE4AAA40AE49AA10AF0A6ACA30AE788A50AF0A5A9940A
  F0A1A9A30AF0A3B8860AF0A3BDA10AE6998D0AE59BBB0AE7B6950AE5A49D0AF0A8AEB90AE3B7B40AE99CB40AF0A7AFAF
  0AE5AF9B0AF0A1B59E0AE5AAA40AE398A50AF0A9BAB00AE5AB910AE5AEB70AE5B3BC0AE69DAE0AE896930AF0A9A5850A
  E791A10AE7929D0AE3A1B50AF0A1B5930AF0A39A9E0AF0A680A10AE3BBAC0AF0A5A39E0AE3ABB50AE7ABBC0AE9BE970A
  F0A485A10AF0A8A48D0AF0A387AA0AF0A0AA8A0AF0A3899E0AE48C8A0AE892840AE9BE960AE990AF0AE4A4B00AE89893
  0AE5A2960AE99D8A0AE988980AE7A7900AE7A8B20AE699A00AE6A8A90AE8A29D0AE7918C0AE7AF850AE69E820AE7A8AC
  0AE5898F0AE981860AE393A60AE78F840AF0A5B6B90AE793860AE9BF870AE59EB30AE4A4AF0AE5918C0AE484B10AF0A3
  9A8E0AE5A0980AE7A9B20AF0A7ADA50AE8AE8F0AE49AAE0AF0A6BA880AE486810AF0A5B6990AE7AEAE0AF0A292BC0AE9
  BF880AF0A293810AF0A293890AF0A2938C0AE9BF890AE894840AF0A396BB0AE482B40AE9BF8A0AE493A10AF0AAB7BF0A
  E68B810AE781AE0AE9BF8B0A"

/-- tests/test_data/whatwg/big5_whatwg_test_encode_in.txt, part 7 -/
noncomputable def encodeIn6 : List Nat := hex! "E48FB00AE4B0B20AE498830AE496A60AE495B80AF0A789A70AE4B5B70AE496B30AF0A7B2B10AE4B3A20AF0A7B3850AE3
  AE950AE49CB60AE49D840AE4B1870AE4B1800AF0A48ABF0AF0A398970AF0A78D920AF0A6BA8B0AF0A783920AE4B1970A
  F0AA8D910AE49D8F0AE4979A0AE4B2850AF0A7B1AC0AE4B4870AE4AAA40AE49AA10AF0A6ACA30AE788A50AF0A5A9940A
  F0A1A9A30AF0A3B8860AF0A3BDA10AE6998D0AE59BBB0AE7B6950AE5A49D0AF0A8AEB90AE3B7B40AE99CB40AF0A7AFAF
  0AE5AF9B0AF0A1B59E0AE5AAA40AE398A50AF0A9BAB00AE5AB910AE5AEB70AE5B3BC0AE69DAE0AE896930AF0A9A5850A
  E791A10AE7929D0AE3A1B50AF0A1B5930AF0A39A9E0AF0A680A10AE3BBAC0AF0A5A39E0AE3ABB50AE7ABBC0AE9BE970A
  F0A485A10AF0A8A48D0AF0A387AA0AF0A0AA8A0AF0A3899E0AE48C8A0AE892840AE9BE960AE990AF0AE4A4B00AE89893
  0AE5A2960AE99D8A0AE988980AE7A7900AE7A8B20AE699A00AE6A8A90AE8A29D0AE7918C0AE7AF850AE69E820AE7A8AC
  0AE5898F0AE981860AE393A60AE78F840AF0A5B6B90AE793860AE9BF870AE59EB30AE4A4AF0AE5918C0AE484B10AF0A3
  9A8E0AE5A0980AE7A9B20AF0A7ADA50AE8AE8F0AE49AAE0AF0A6BA880AE486810AF0A5B6990AE7AEAE0AF0A292BC0AE9
  BF880AF0A293810AF0A293890AF0A2938C0AE9BF890AE894840AF0A396BB0AE482B40AE9BF8A0AE493A10AF0AAB7BF0A
  E68B810AE781AE0AE9BF8B0A"

/-- tests/test_data/whatwg/big5_whatwg_test_encode_out.txt, part 7 -/
noncomputable def encodeOut6 : List Nat := hex! "87400A87410A87420A87430A87440A87450A87460A87470A87480A87490A874A0A874B0A874C0A874D0A874E0A874F0A
  87500A87510A87520A87530A87540A87550A87560A87570A87580A87590A875A0A875B0A875C0A875D0A875E0A875F0A
  87600A87610A87620A87630A87640A87650A87670A87680A87690A876A0A876B0A876C0A876D0A876E0A876F0A87700A
  87710A87720A87730A87740A87750A87760A87770A87780A87790A877A0A877B0A877C0A877D0A877E0A87A10A87A20A
  87A30A87A40A87A50A87A60A87A70A87A80A87A90A87AA0A87AB0A87AC0A87AD0A87AE0A87AF0A87B00A87B10A87B20A
  87B30A87B40A87B50A87B60A87B70A87B80A87B90A87BA0A87BB0A87BC0A87BD0A87BE0A87BF0A87C00A87C10A87C20A
  87C30A87C40A87C50A87C60A87C70A87C80A87C90A87CA0A87CB0A87CC0A87CD0A87CE0A87CF0A87D00A87D10A87D20A
  87D30A87D40A87D50A87D60A87D70A87D80A87D90A87DA0A87DB0A87DC0A87DD0A87DE0A87DF0A"

/-- tests/test_data/whatwg/big5_whatwg_test_decode_in.txt, part 8 -/
noncomputable def decodeIn7 : List Nat := hex! "88400A88410A88420A88430A88440A88450A88460A88470A88480A88490A884A0A884B0A884C0A884D0A884E0A884F0A
  88500A88510A88520A88530A88540A88550A88560A88570A88580A88590A885A0A885B0A885C0A885D0A885E0A885F0A
  88600A88610A88630A88650A88660A88670A88680A88690A886A0A886B0A886C0A886D0A886E0A886F0A88700A88710A
  88720A88730A88740A88750A88760A88770A88780A88790A887A0A887B0A887C0A887D0A887E0A88A10A88A20A88A40A
  88A60A88A70A88A80A88A90A88AA0A"

/-- tests/test_data/whatwg/big5_whatwg_test_decode_out.txt, part 8 -/
noncomputable def decodeOut7 : List Nat := hex! "E387800AE387810AE387820AE387830AE387840AF0A0848C0AE387850AF0A083910AF0A0838D0AE387860AE387870AF0
  A0838B0AF0A1BFA80AE387880AF0A0838A0AE387890AE3878A0AE3878B0AE3878C0AF0A0848E0AE3878D0AE3878E0AC4
  800AC3810AC78D0AC3800AC4920AC3890AC49A0AC3880AC58C0AC3930AC7910AC3920AE1BABE0AE1BB800AC38A0AC481
  0AC3A10AC78E0AC3A00AC9910AC4930AC3A90AC49B0AC3A80AC4AB0AC3AD0AC7900AC3AC0AC58D0AC3B30AC7920AC3B2
  0AC5AB0AC3BA0AC7940AC3B90AC7960AC7980AC79A0AC79C0AC3BC0AE1BABF0AE1BB810AC3AA0AC9A10AE28F9A0AE28F
  9B0A"

/-- tests/test_data/whatwg/big5_whatwg_test_encode_in.txt, part 8 -/
noncomputable def encodeIn7 : List Nat := hex! "E387800AE387810AE387820AE387830AE387840AF0A0848C0AE387850AF0A083910AF0A0838D0AE387860AE387870AF0
  A0838B0AF0A1BFA80AE387880AF0A0838A0AE387890AE3878A0AE3878B0AE3878C0AF0A0848E0AE3878D0AE3878E0AC4
  800AC3810AC78D0AC3800AC4920AC3890AC49A0AC3880AC58C0AC3930AC7910AC3920AE1BABE0AE1BB800AC38A0AC481
  0AC3A10AC78E0AC3A00AC9910AC4930AC3A90AC49B0AC3A80AC4AB0AC3AD0AC7900AC3AC0AC58D0AC3B30AC7920AC3B2
  0AC5AB0AC3BA0AC7940AC3B90AC7960AC7980AC79A0AC79C0AC3BC0AE1BABF0AE1BB810AC3AA0AC9A10AE28F9A0AE28F
  9B0A"

/-- tests/test_data/whatwg/big5_whatwg_test_encode_out.txt, part 8 -/
noncomputable def encodeOut7 : List Nat := hex! "88400A88410A88420A88430A88440A88450A88460A88470A88480A88490A884A0A884B0A884C0A884D0A884E0A884F0A
  88500A88510A88520A88530A88540A88550A88560A88570A88580A88590A885A0A885B0A885C0A885D0A885E0A885F0A
  88600A88610A88630A88650A88660A88670A88680A88690A886A0A886B0A886C0A886D0A886E0A886F0A88700A88710A
  88720A88730A88740A88750A88760A88770A88780A88790A887A0A887B0A887C0A887D0A887E0A88A10A88A20A88A40A
  88A60A88A70A88A80A88A90A88AA0A"

/-- tests/test_data/whatwg/big5_whatwg_test_decode_in.txt, part 9 -/
noncomputable def decodeIn8 : List Nat := hex! "89400A89410A89430A89460A89470A89480A89490A894C0A894D0A894E0A894F0A89500A89510A89520A89530A89540A
  89550A89560A89570A89580A89590A895A0A895B0A895C0A895D0A895E0A895F0A89600A89610A89620A89630A89640A
  89650A89660A89670A89680A89690A896A0A896B0A896C0A896D0A896E0A896F0A89700A89710A89720A89730A89740A
  89750A89760A89770A89780A89790A897A0A897B0A897C0A897D0A897E0A89A10A89A20A89A30A89A40A89A50A89A60A
  89AB0A89AC0A89AD0A89AE0A89B00A89B10A89B20A89B50A89B60A89B70A89B80A89B90A89BA0A89BB0A89BC0A89BD0A
  89BE0A89BF0A89C10A89C20A89C30A89C50A89C60A89C70A89C80A89C90A89CA0A89CB0A89CC0A89CD0A89CE0A89CF0A
  89D00A89D10A89D20A89D30A89D40A89D50A89D60A89D70A89D80A89D90A89DA0A89DB0A89DC0A89DD0A89DE0A89DF0A
  89E00A89E10A89E20A89E30A89E40A89E50A89E60A89E70A89E80A89E90A89EA0A89EB0A89EC0A89ED0A89EE0A89EF0A
  89F00A89F10A89F20A89F30A89F40A89F50A89F60A89F70A89F80A89F90A89FA0A89FB0A89FC0A89FD0A89FE0A"

/-- tests/test_data/whatwg/big5_whatwg_test_decode_out.txt, part 9 -/
noncomputable def decodeOut8 : List Nat := hex! "F0AA8EA90AF0A185850AE6948A0AE4B8BD0AE6BB9D0AE9B58E0AE9879F0AF0A79CB50AE692910AE4BC9A0AE4BCA80AE4
  BEA80AE585960AE585B40AE5869C0AE587A40AE58AA10AE58AA80AE58CBB0AE58D8E0AE58F910AE58F980AE59BA20AE5
  A3B00AE5A4840AE5A4870AE5A4B20AE5A4B40AE5ADA60AE5AE9E0AE5AE9F0AE5B29A0AE5BA860AE680BB0AE696890AE6
  9FBE0AE6A0840AE6A1A50AE6B58E0AE782BC0AE794B50AE7BAA40AE7BAAC0AE7BABA0AE7BB870AE7BB8F0AE7BB9F0AE7
  BC860AE7BCB70AE889BA0AE88B8F0AE88DAF0AE8A7860AE8AEBE0AE8AFA20AE8BDA60AE8BDA70AE8BDAE0AE790910AE7
  B3BC0AE7B78D0AE6A5860AE7AB890AE588A70AE9868C0AE7A2B80AE9859E0AE882BC0AE8B48B0AE883B60AF0A0A7A70A
  E8829F0AE9BB870AE4B38D0AE9B7890AE9B88C0AE4B0BE0AF0A9B7B60AF0A7808E0AE9B88A0AF0AA84B30AE397810AE6
  BA9A0AE888BE0AE794990AE4A4910AE9A9AC0AE9AA8F0AE9BE990AE7A6870AF0A891AC0AF0A1B78A0AF0A097900AF0A2
  ABA60AE4B8A40AE4BA810AE4BA800AE4BA870AE4BABF0AE4BBAB0AE4BCB70AE3918C0AE4BEBD0AE3B9880AE580830AE5
  82880AE391BD0AE392930AE392A50AE586860AE5A4850AE5879B0AE587BC0AE588850AE4BA890AE589B90AE58A900AE5
  8CA70AE397870AE58EA90AE395910AE58EB00AE395930AE58F820AE590A30AE395AD0AE395B20AE39A810AE592930AE5
  92A30AE592B40AE592B90AE593900AE593AF0AE594980AE594A30AE594A80AE396980AE594BF0AE396A50AE396BF0AE5
  97970AE397850A"

/-- tests/test_data/whatwg/big5_whatwg_test_encode_in.txt, part 9 -/
noncomputable def encodeIn8 : List Nat := hex! "F0AA8EA90AF0A185850AE6948A0AE4B8BD0AE6BB9D0AE9B58E0AE9879F0AF0A79CB50AE692910AE4BC9A0AE4BCA80AE4
  BEA80AE585960AE585B40AE5869C0AE587A40AE58AA10AE58AA80AE58CBB0AE58D8E0AE58F910AE58F980AE59BA20AE5
  A3B00AE5A4840AE5A4870AE5A4B20AE5A4B40AE5ADA60AE5AE9E0AE5AE9F0AE5B29A0AE5BA860AE680BB0AE696890AE6
  9FBE0AE6A0840AE6A1A50AE6B58E0AE782BC0AE794B50AE7BAA40AE7BAAC0AE7BABA0AE7BB870AE7BB8F0AE7BB9F0AE7
  BC860AE7BCB70AE889BA0AE88B8F0AE88DAF0AE8A7860AE8AEBE0AE8AFA20AE8BDA60AE8BDA70AE8BDAE0AE790910AE7
  B3BC0AE7B78D0AE6A5860AE7AB890AE588A70AE9868C0AE7A2B80AE9859E0AE882BC0AE8B48B0AE883B60AF0A0A7A70A
  E8829F0AE9BB870AE4B38D0AE9B7890AE9B88C0AE4B0BE0AF0A9B7B60AF0A7808E0AE9B88A0AF0AA84B30AE397810AE6
  BA9A0AE888BE0AE794990AE4A4910AE9A9AC0AE9AA8F0AE9BE990AE7A6870AF0A891AC0AF0A1B78A0AF0A097900AF0A2
  ABA60AE4B8A40AE4BA810AE4BA800AE4BA870AE4BABF0AE4BBAB0AE4BCB70AE3918C0AE4BEBD0AE3B9880AE580830AE5
  82880AE391BD0AE392930AE392A50AE586860AE5A4850AE5879B0AE587BC0AE588850AE4BA890AE589B90AE58A900AE5
  8CA70AE397870AE58EA90AE395910AE58EB00AE395930AE58F820AE590A30AE395AD0AE395B20AE39A810AE592930AE5
  92A30AE592B40AE592B90AE593900AE593AF0AE594980AE594A30AE594A80AE396980AE594BF0AE396A50AE396BF0AE5
  97970AE397850A"

/-- tests/test_data/whatwg/big5_whatwg_test_encode_out.txt, part 9 -/
noncomputable def encodeOut8 : List Nat := hex! "89400A89410A89430A89460A89470A89480A89490A894C0A894D0A894E0A894F0A89500A89510A89520A89530A89540A
  89550A89560A89570A89580A89590A895A0A895B0A895C0A895D0A895E0A895F0A89600A89610A89620A89630A89640A
  89650A89660A89670A89680A89690A896A0A896B0A896C0A896D0A896E0A896F0A89700A89710A89720A89730A89740A
  89750A89760A89770A89780A89790A897A0A897B0A897C0A897D0A897E0A89A10A89A20A89A30A89A40A89A50A89A60A
  89AB0A89AC0A89AD0A89AE0A89B00A89B10A89B20A89B50A89B60A89B70A89B80A89B90A89BA0A89BB0A89BC0A89BD0A
  89BE0A89BF0A89C10A89C20A89C30A89C50A89C60A89C70A89C80A89C90A89CA0A89CB0A89CC0A89CD0A89CE0A89CF0A
  89D00A89D10A89D20A89D30A89D40A89D50A89D60A89D70A89D80A89D90A89DA0A89DB0A89DC0A89DD0A89DE0A89DF0A
  89E00A89E10A89E20A89E30A89E40A89E50A89E60A89E70A89E80A89E90A89EA0A89EB0A89EC0A89ED0A89EE0A89EF0A
  89F00A89F10A89F20A89F30A89F40A89F50A89F60A89F70A89F80A89F90A89FA0A89FB0A89FC0A89FD0A89FE0A"

/-- tests/test_data/whatwg/big5_whatwg_test_decode_in.txt, part 10 -/
noncomputable def decodeIn9 : List Nat := hex! "8A400A8A410A8A430A8A440A8A450A8A460A8A470A8A480A8A490A8A4A0A8A4B0A8A4C0A8A4D0A8A4E0A8A4F0A8A500A
  8A510A8A520A8A530A8A540A8A550A8A560A8A570A8A580A8A590A8A5A0A8A5B0A8A5C0A8A5D0A8A5E0A8A5F0A8A600A
  8A610A8A620A8A640A8A650A8A660A8A670A8A680A8A690A8A6A0A8A6B0A8A6C0A8A6D0A8A6E0A8A6F0A8A700A8A710A
  8A720A8A730A8A740A8A760A8A770A8A780A8A790A8A7A0A8A7B0A8A7C0A8A7D0A8A7E0A8AA10A8AA20A8AA30A8AA40A
  8AA50A8AA60A8AA70A8AA80A8AA90A8AAA0A8AAC0A8AAD0A8AAE0A8AAF0A8AB00A8AB20A8AB30A8AB40A8AB50A8AB60A
  8AB70A8AB80A8AB90A8ABB0A8ABC0A8ABD0A8ABE0A8ABF0A8AC00A8AC10A8AC20A8AC30A8AC40A8AC50A8AC60A8AC70A
  8AC90A8ACA0A8ACB0A8ACC0A8ACE0A8ACF0A8AD00A8AD10A8AD20A8AD30A8AD40A8AD50A8AD60A8AD70A8AD80A8AD90A
  8ADA0A8ADB0A8ADC0A8ADF0A8AE00A8AE10A8AE20A8AE30A8AE40A8AE50A8AE60A8AE70A8AE80A8AE90A8AEA0A8AEB0A
  8AEC0A8AED0A8AEE0A8AEF0A8AF00A8AF10A8AF20A8AF30A8AF40A8AF60A8AF70A8AF80A8AF90A8AFA0A8AFB0A8AFC0A
  8AFD0A8AFE0A"

/-- tests/test_data/whatwg/big5_whatwg_test_decode_out.txt, part 10 -/
noncomputable def decodeOut9 : List Nat := hex! "F0A7B6840AE594A50AF0A0B1820AF0A0B4950AF0A584AB0AE596900AF0A2B3860AE3A7AC0AF0A08D810AE8B9860AF0A4
  B6B80AF0A993A50AE481930AF0A882BE0AE79DBA0AF0A2B0B80AE3A8B40AE49F950AF0A8859D0AF0A6A7B20AF0A4B7AA
  0AE6939D0AF0A0B5BC0AF0A0BEB40AF0A0B3950AF0A183B40AE6928D0AE8B9BE0AF0A0BA960AF0A0B08B0AF0A0BDA40A
  F0A2B2A90AF0A889960AF0A493930AF0A0B5860AF0A9A98D0AF0A883A90AE49FB40AF0A4BAA70AF0A2B3820AE9AAB20A
  E3A9A70AF0A997B40AE3BFAD0AE394860AF0A58B870AF0A99F940AF0A7A3880AF0A2B5840AE9B5AE0AE9A0950AE48F99
  0AF0A682A50AE692B40AE593A30AF0A2B58C0AF0A2AF8A0AF0A181B70AE3A7BB0AF0A181AF0AF0A69B9A0AF0A69C960A
  F0A7A6A00AE693AA0AF0A581920AF0A0B1830AE8B9A80AF0A286A10AF0A8AD8C0AF0A09CB10AE4A08B0AF0A086A90AE3
  BFBA0AE5A1B30AF0A2B68D0AF0A497880AF0A093BC0AF0A682970AF0A0BD8C0AF0A0B6960AE595B90AE482BB0AE48EBA
  0AE4AAB40AF0A2A9A60AF0A1829D0AE886AA0AE9A3B50AF0A0B69C0AE68DB90AE3A7BE0AF0A29DB50AE8B7800AE59AA1
  0AE691BC0AE3B9830AF0AA98810AF0A0B8890AF0A2AB8F0AF0A2B3890AF0A183880AF0A3A7820AE3A6920AE3A8860AF0
  A88A9B0AE395B80AF0A5B9890AF0A283870AE599920AF0A0BCB10AF0A2B2B20AF0A99CA00AE392BC0AE6B0BD0AF0A4B8
  BB0AF0A795B40AF0A2BA8B0AF0A288880AF0AA999B0AF0A8B38D0AF0A0B9BA0AF0A0B0B40AF0A6A09C0AE7BE930AF0A1
  838F0AF0A2A0830AF0A2A4B90AE397BB0AF0A587A30AF0A0BA8C0AF0A0BE8D0AF0A0BAAA0AE3BE930AF0A0BCB00AF0A0
  B5870AF0A1858F0AF0A0B98C0AF0A0BAAB0AF0A0AEA90AF0A0B5880AF0A183800AF0A184BD0AE3BFB90AF0A29A960AE6
  90B20AF0A0BEAD0A"

/-- tests/test_data/whatwg/big5_whatwg_test_encode_in.txt, part 10 -/
noncomputable def encodeIn9 : List Nat := hex! "F0A7B6840AE594A50AF0A0B1820AF0A0B4950AF0A584AB0AE596900AF0A2B3860AE3A7AC0AF0A08D810AE8B9860AF0A4
  B6B80AF0A993A50AE481930AF0A882BE0AE79DBA0AF0A2B0B80AE3A8B40AE49F950AF0A8859D0AF0A6A7B20AF0A4B7AA
  0AE6939D0AF0A0B5BC0AF0A0BEB40AF0A0B3950AF0A183B40AE6928D0AE8B9BE0AF0A0BA960AF0A0B08B0AF0A0BDA40A
  F0A2B2A90AF0A889960AF0A493930AF0A0B5860AF0A9A98D0AF0A883A90AE49FB40AF0A4BAA70AF0A2B3820AE9AAB20A
  E3A9A70AF0A997B40AE3BFAD0AE394860AF0A58B870AF0A99F940AF0A7A3880AF0A2B5840AE9B5AE0AE9A0950AE48F99
  0AF0A682A50AE692B40AE593A30AF0A2B58C0AF0A2AF8A0AF0A181B70AE3A7BB0AF0A181AF0AF0A69B9A0AF0A69C960A
  F0A7A6A00AE693AA0AF0A581920AF0A0B1830AE8B9A80AF0A286A10AF0A8AD8C0AF0A09CB10AE4A08B0AF0A086A90AE3
  BFBA0AE5A1B30AF0A2B68D0AF0A497880AF0A093BC0AF0A682970AF0A0BD8C0AF0A0B6960AE595B90AE482BB0AE48EBA
  0AE4AAB40AF0A2A9A60AF0A1829D0AE886AA0AE9A3B50AF0A0B69C0AE68DB90AE3A7BE0AF0A29DB50AE8B7800AE59AA1
  0AE691BC0AE3B9830AF0AA98810AF0A0B8890AF0A2AB8F0AF0A2B3890AF0A183880AF0A3A7820AE3A6920AE3A8860AF0
  A88A9B0AE395B80AF0A5B9890AF0A283870AE599920AF0A0BCB10AF0A2B2B20AF0A99CA00AE392BC0AE6B0BD0AF0A4B8
  BB0AF0A795B40AF0A2BA8B0AF0A288880AF0AA999B0AF0A8B38D0AF0A0B9BA0AF0A0B0B40AF0A6A09C0AE7BE930AF0A1
  838F0AF0A2A0830AF0A2A4B90AE397BB0AF0A587A30AF0A0BA8C0AF0A0BE8D0AF0A0BAAA0AE3BE930AF0A0BCB00AF0A0
  B5870AF0A1858F0AF0A0B98C0AF0A0BAAB0AF0A0AEA90AF0A0B5880AF0A183800AF0A184BD0AE3BFB90AF0A29A960AE6
  90B20AF0A0BEAD0A"

/-- tests/test_data/whatwg/big5_whatwg_test_encode_out.txt, part 10 -/
noncomputable def encodeOut9 : List Nat := hex! "8A400A8A410A8A430A8A440A8A450A8A460A8A470A8A480A8A490A8A4A0A8A4B0A8A4C0A8A4D0A8A4E0A8A4F0A8A500A
  8A510A8A520A8A530A8A540A8A550A8A560A8A570A8A580A8A590A8A5A0A8A5B0A8A5C0A8A5D0A8A5E0A8A5F0A8A600A
  8A610A8A620A8A640A8A650A8A660A8A670A8A680A8A690A8A6A0A8A6B0A8A6C0A8A6D0A8A6E0A8A6F0A8A700A8A710A
  8A720A8A730A8A740A8A760A8A770A8A780A8A790A8A7A0A8A7B0A8A7C0A8A7D0A8A7E0A8AA10A8AA20A8AA30A8AA40A
  8AA50A8AA60A8AA70A8AA80A8AA90A8AAA0A8AAC0A8AAD0A8AAE0A8AAF0A8AB00A8AB20A8AB30A8AB40A8AB50A8AB60A
  8AB70A8AB80A8AB90A8ABB0A8ABC0A8ABD0A8ABE0A8ABF0A8AC00A8AC10A8AC20A8AC30A8AC40A8AC50A8AC60A8AC70A
  8AC90A8ACA0A8ACB0A8ACC0A8ACE0A8ACF0A8AD00A8AD10A8AD20A8AD30A8AD40A8AD50A8AD60A8AD70A8AD80A8AD90A
  8ADA0A8ADB0A8ADC0A8ADF0A8AE00A8AE10A8AE20A8AE30A8AE40A8AE50A8AE60A8AE70A8AE80A8AE90A8AEA0A8AEB0A
  8AEC0A8AED0A8AEE0A8AEF0A8AF00A8AF10A8AF20A8AF30A8AF40A8AF60A8AF70A8AF80A8AF90A8AFA0A8AFB0A8AFC0A
  8AFD0A8AFE0A"

/-- tests/test_data/whatwg/big5_whatwg_test_decode_in.txt, part 11 -/
noncomputable def decodeIn10 : List Nat := hex! "8B400A8B410A8B420A8B430A8B440A8B450A8B460A8B470A8B480A8B490A8B4A0A8B4B0A8B4C0A8B4D0A8B4E0A8B4F0A
  8B500A8B510A8B520A8B530A8B550A8B560A8B570A8B580A8B590A8B5A0A8B5B0A8B5C0A8B5D0A8B5E0A8B5F0A8B600A
  8B610A8B620A8B630A8B640A8B650A8B660A8B670A8B680A8B690A8B6A0A8B6B0A8B6C0A8B6D0A8B6E0A8B6F0A8B700A
  8B710A8B720A8B730A8B740A8B750A8B760A8B770A8B780A8B790A8B7A0A8B7B0A8B7C0A8B7D0A8B7E0A8BA10A8BA20A
  8BA30A8BA40A8BA50A8BA60A8BA70A8BA80A8BA90A8BAA0A8BAB0A8BAC0A8BAD0A8BAE0A8BAF0A8BB00A8BB10A8BB20A
  8BB30A8BB40A8BB50A8BB60A8BB70A8BB80A8BB90A8BBA0A8BBB0A8BBC0A8BBD0A8BBE0A8BBF0A8BC00A8BC10A8BC20A
  8BC30A8BC40A8BC50A8BC60A8BC70A8BC80A8BC90A8BCA0A8BCB0A8BCC0A8BCD0A8BCE0A8BCF0A8BD00A8BD10A8BD20A
  8BD30A8BD40A8BD50A8BD60A8BD70A8BD80A8BD90A8BDA0A8BDB0A8BDC0A8BDE0A8BDF0A8BE00A8BE10A8BE20A8BE30A
  8BE40A8BE50A8BE60A8BE70A8BE80A8BE90A8BEA0A8BEB0A8BEC0A8BED0A8BEE0A8BEF0A8BF00A8BF10A8BF20A8BF30A
  8BF40A8BF50A8BF60A8BF70A8BF80A8BF90A8BFA0A8BFB0A8BFC0A8BFD0A"

/-- tests/test_data/whatwg/big5_whatwg_test_decode_out.txt, part 11 -/
noncomputable def decodeOut10 : List Nat := hex! "F0A38FB40AF0A798B90AF0A2AF8E0AF0A0B5BE0AF0A0B5BF0AF0A2B1910AF0A2B1950AE3A8980AF0A0BA980AF0A18387
  0AF0A0BCAE0AF0AA98B20AF0A6AD900AF0A8B3920AF0A8B6990AF0A8B38A0AE996AA0AE5938C0AE88B840AE596B90AF0
  A9BB830AE9B0A60AE9AAB60AF0A79D9E0AF0A2B7AE0AE785800AE885AD0AE883AC0AE5B09C0AF0A695B20AE884B40AE3
  9E970AE58D9F0AF0A882BD0AE986B60AF0A0BBBA0AF0A0B88F0AF0A0B9B70AF0A0BBBB0AE3979D0AF0A4B7AB0AE39889
  0AF0A0B3960AE59AAF0AF0A29EB50AF0A183890AF0A0B8900AF0A0B9B80AF0A181B80AF0A185880AF0A888870AF0A191
  950AF0A0B9B90AF0A4B9900AF0A2B6A40AE5A9940AF0A1809D0AF0A1809E0AF0A183B50AF0A183B60AE59E9C0AF0A0B8
  910AF0A79A940AF0A88B8D0AF0A0BEB50AF0A0B9BB0AF0A585BE0AE39C830AF0A0BEB60AF0A186800AF0A58B980AF0AA
  8ABD0AF0A4A79A0AF0A1A0BA0AF0A485B70AF0A889BC0AE5A2990AE589A80AE3989A0AF0A59CBD0AE7AEB20AE5ADA80A
  E4A0800AE4ACAC0AE9BCA70AE4A7A70AE9B09F0AE9AE8D0AF0A5ADB40AF0A384BD0AE597BB0AE397B20AE59A890AE4B8
  A80AE5A4820AF0A1AF810AF0AFA1B80AE99D910AF0A082860AE4B99B0AE4BABB0AE394BE0AE5B0A30AE5BD910AE5BF84
  0AE3A3BA0AE6898C0AE694B50AE6ADBA0AE6B0B50AE6B0BA0AE781AC0AE788AB0AE4B8AC0AE78AAD0AF0A4A3A90AE7BD
  920AE7A4BB0AE7B3B90AE7BD930AF0A689AA0AE393810AF0A68D8B0AE880820AE882800AF0A698920AF0A6A5910AE58D
  9D0AE8A1A40AE8A7810AF0A7A2B20AE8AEA00AE8B49D0AE992850AE995B80AE995BF0AE997A80AF0A8B88F0AE99FA60A
  E9A1B50AE9A38E0AE9A39E0AE9A5A30AF0A9A0900AE9B1BC0AE9B89F0AE9BB840AE6ADAF0AEFA4870AE4B8B70AF0A082
  870AE9989D0AE688B70AE992A20A"

/-- tests/test_data/whatwg/big5_whatwg_test_encode_in.txt, part 11 -/
noncomputable def encodeIn10 : List Nat := hex! "F0A38FB40AF0A798B90AF0A2AF8E0AF0A0B5BE0AF0A0B5BF0AF0A2B1910AF0A2B1950AE3A8980AF0A0BA980AF0A18387
  0AF0A0BCAE0AF0AA98B20AF0A6AD900AF0A8B3920AF0A8B6990AF0A8B38A0AE996AA0AE5938C0AE88B840AE596B90AF0
  A9BB830AE9B0A60AE9AAB60AF0A79D9E0AF0A2B7AE0AE785800AE885AD0AE883AC0AE5B09C0AF0A695B20AE884B40AE3
  9E970AE58D9F0AF0A882BD0AE986B60AF0A0BBBA0AF0A0B88F0AF0A0B9B70AF0A0BBBB0AE3979D0AF0A4B7AB0AE39889
  0AF0A0B3960AE59AAF0AF0A29EB50AF0A183890AF0A0B8900AF0A0B9B80AF0A181B80AF0A185880AF0A888870AF0A191
  950AF0A0B9B90AF0A4B9900AF0A2B6A40AE5A9940AF0A1809D0AF0A1809E0AF0A183B50AF0A183B60AE59E9C0AF0A0B8
  910AF0A79A940AF0A88B8D0AF0A0BEB50AF0A0B9BB0AF0A585BE0AE39C830AF0A0BEB60AF0A186800AF0A58B980AF0AA
  8ABD0AF0A4A79A0AF0A1A0BA0AF0A485B70AF0A889BC0AE5A2990AE589A80AE3989A0AF0A59CBD0AE7AEB20AE5ADA80A
  E4A0800AE4ACAC0AE9BCA70AE4A7A70AE9B09F0AE9AE8D0AF0A5ADB40AF0A384BD0AE597BB0AE397B20AE59A890AE4B8
  A80AE5A4820AF0A1AF810AF0AFA1B80AE99D910AF0A082860AE4B99B0AE4BABB0AE394BE0AE5B0A30AE5BD910AE5BF84
  0AE3A3BA0AE6898C0AE694B50AE6ADBA0AE6B0B50AE6B0BA0AE781AC0AE788AB0AE4B8AC0AE78AAD0AF0A4A3A90AE7BD
  920AE7A4BB0AE7B3B90AE7BD930AF0A689AA0AE393810AF0A68D8B0AE880820AE882800AF0A698920AF0A6A5910AE58D
  9D0AE8A1A40AE8A7810AF0A7A2B20AE8AEA00AE8B49D0AE992850AE995B80AE995BF0AE997A80AF0A8B88F0AE99FA60A
  E9A1B50AE9A38E0AE9A39E0AE9A5A30AF0A9A0900AE9B1BC0AE9B89F0AE9BB840AE6ADAF0AEFA4870AE4B8B70AF0A082
  870AE9989D0AE688B70AE992A20A"

/-- tests/test_data/whatwg/big5_whatwg_test_encode_out.txt, part 11 -/
noncomputable def encodeOut10 : List Nat := hex! "8B400A8B410A8B420A8B430A8B440A8B450A8B460A8B470A8B480A8B490A8B4A0A8B4B0A8B4C0A8B4D0A8B4E0A8B4F0A
  8B500A8B510A8B520A8B530A8B550A8B560A8B570A8B580A8B590A8B5A0A8B5B0A8B5C0A8B5D0A8B5E0A8B5F0A8B600A
  8B610A8B620A8B630A8B640A8B650A8B660A8B670A8B680A8B690A8B6A0A8B6B0A8B6C0A8B6D0A8B6E0A8B6F0A8B700A
  8B710A8B720A8B730A8B740A8B750A8B760A8B770A8B780A8B790A8B7A0A8B7B0A8B7C0A8B7D0A8B7E0A8BA10A8BA20A
  8BA30A8BA40A8BA50A8BA60A8BA70A8BA80A8BA90A8BAA0A8BAB0A8BAC0A8BAD0A8BAE0A8BAF0A8BB00A8BB10A8BB20A
  8BB30A8BB40A8BB50A8BB60A8BB70A8BB80A8BB90A8BBA0A8BBB0A8BBC0A8BBD0A8BBE0A8BBF0A8BC00A8BC10A8BC20A
  8BC30A8BC40A8BC50A8BC60A8BC70A8BC80A8BC90A8BCA0A8BCB0A8BCC0A8BCD0A8BCE0A8BCF0A8BD00A8BD10A8BD20A
  8BD30A8BD40A8BD50A8BD60A8BD70A8BD80A8BD90A8BDA0A8BDB0A8BDC0A8BDE0A8BDF0A8BE00A8BE10A8BE20A8BE30A
  8BE40A8BE50A8BE60A8BE70A8BE80A8BE90A8BEA0A8BEB0A8BEC0A8BED0A8BEE0A8BEF0A8BF00A8BF10A8BF20A8BF30A
  8BF40A8BF50A8BF60A8BF70A8BF80A8BF90A8BFA0A8BFB0A8BFC0A8BFD0A"

/-- tests/test_data/whatwg/big5_whatwg_test_decode_in.txt, part 12 -/
noncomputable def decodeIn11 : List Nat := hex! "8C400A8C410A8C420A8C430A8C440A8C450A8C460A8C470A8C480A8C490A8C4A0A8C4B0A8C4C0A8C4D0A8C4E0A8C4F0A
  8C500A8C510A8C520A8C530A8C540A8C550A8C560A8C570A8C580A8C590A8C5A0A8C5B0A8C5C0A8C5D0A8C5E0A8C5F0A
  8C600A8C610A8C620A8C630A8C640A8C650A8C660A8C670A8C680A8C690A8C6A0A8C6B0A8C6C0A8C6D0A8C6E0A8C6F0A
  8C700A8C710A8C720A8C730A8C740A8C750A8C760A8C770A8C780A8C790A8C7A0A8C7B0A8C7C0A8C7D0A8C7E0A8CA10A
  8CA20A8CA30A8CA40A8CA50A8CA70A8CA80A8CA90A8CAA0A8CAB0A8CAC0A8CAD0A8CAE0A8CAF0A8CB00A8CB10A8CB20A
  8CB30A8CB40A8CB50A8CB60A8CB70A8CB80A8CB90A8CBA0A8CBB0A8CBC0A8CBD0A8CBE0A8CBF0A8CC00A8CC10A8CC20A
  8CC30A8CC40A8CC50A8CC90A8CCA0A8CCB0A8CCC0A8CCE0A8CCF0A8CD00A8CD10A8CD20A8CD30A8CD40A8CD50A8CD60A
  8CD70A8CD80A8CD90A8CDA0A8CDB0A8CDC0A8CDD0A8CDE0A8CDF0A8CE00A8CE10A8CE20A8CE30A8CE40A8CE60A8CE70A
  8CE80A8CE90A8CEA0A8CEB0A8CEC0A8CED0A8CEE0A8CEF0A8CF00A8CF10A8CF20A8CF30A8CF40A8CF50A8CF60A8CF70A
  8CF80A8CF90A8CFA0A8CFB0A8CFC0A8CFD0A8CFE0A"

/-- tests/test_data/whatwg/big5_whatwg_test_decode_out.txt, part 12 -/
noncomputable def decodeOut11 : List Nat := hex! "E580BB0AE6B7BE0AF0A9B1B30AE9BEA60AE3B7890AE8A28F0AF0A4858E0AE781B70AE5B3B50AE4ACA00AF0A5878D0AE3
  95990AF0A5B4B00AE684A20AF0A8A8B20AE8BEA70AE987B60AE786910AE69C990AE78EBA0AF0A38A810AF0AA84870AE3
  B28B0AF0A1A6800AE4AC900AE7A3A40AE790820AE586AE0AF0A89C8F0AE480890AE6A9A30AF0AA8ABA0AE488A30AE898
  8F0AF0A0A9AF0AE7A8AA0AF0A9A5870AF0A8ABAA0AE99D950AE7818D0AE58CA40AF0A281BE0AE98FB40AE79B990AF0A8
  A7A30AE9BEA70AE79F9D0AE4BAA30AE4BFB00AE582BC0AE4B8AF0AE4BC970AE9BEA80AE590B40AE7B68B0AE5A2920AE5
  A3900AF0A1B6B60AE5BA920AE5BA990AE5BF820AF0A29C920AE6968B0AF0A38FB90AE6A4990AE6A9830AF0A3B1A30AE6
  B3BF0AE788800AF0A494850AE78E8C0AE3BB9B0AF0A4A8930AE5AC950AE792B90AE8AE830AF0A5B2A40AF0A59A950AE7
  AA930AE7AFAC0AE7B3830AE7B9AC0AE88BB80AE896970AE9BEA90AE8A2900AE9BEAA0AE8BAB90AE9BEAB0AE8BF8F0AE8
  959F0AE9A7A00AE988A10AE9BEAC0AF0A8B6B90AF0A190BF0AE481B10AE48AA20AE5A89A0AE9A1A80AE69DAB0AE489B6
  0AE59CBD0AE897960AF0A4A5BB0AE88ABF0AF0A7848D0AE4B2810AF0A6B5B40AE5B5BB0AF0A6AC950AF0A6BEBE0AE9BE
  AD0AE9BEAE0AE5AE960AE9BEAF0AE69BA70AE7B99B0AE6B9970AE7A78A0AE3B6880AE493830AF0A389960AF0A29E960A
  E48E9A0AE494B60AE5B3950AF0A3AC9A0AE8ABB90AE5B1B80AE3B4920AF0A395910AE5B5B80AE9BEB20AE785970AE495
  980AF0A483AC0AF0A1B8A30AE4B1B70AE3A5B80AE3918A0AF0A086A40AF0A6B1810AE8AB8C0AE4BEB40AF0A088B90AE5
  A6BF0AE885AC0AE9A1960AF0A9A3BA0AE5BCBB0A"

/-- tests/test_data/whatwg/big5_whatwg_test_encode_in.txt, part 12 -/
noncomputable def encodeIn11 : List Nat := hex! "E580BB0AE6B7BE0AF0A9B1B30AE9BEA60AE3B7890AE8A28F0AF0A4858E0AE781B70AE5B3B50AE4ACA00AF0A5878D0AE3
  95990AF0A5B4B00AE684A20AF0A8A8B20AE8BEA70AE987B60AE786910AE69C990AE78EBA0AF0A38A810AF0AA84870AE3
  B28B0AF0A1A6800AE4AC900AE7A3A40AE790820AE586AE0AF0A89C8F0AE480890AE6A9A30AF0AA8ABA0AE488A30AE898
  8F0AF0A0A9AF0AE7A8AA0AF0A9A5870AF0A8ABAA0AE99D950AE7818D0AE58CA40AF0A281BE0AE98FB40AE79B990AF0A8
  A7A30AE9BEA70AE79F9D0AE4BAA30AE4BFB00AE582BC0AE4B8AF0AE4BC970AE9BEA80AE590B40AE7B68B0AE5A2920AE5
  A3900AF0A1B6B60AE5BA920AE5BA990AE5BF820AF0A29C920AE6968B0AF0A38FB90AE6A4990AE6A9830AF0A3B1A30AE6
  B3BF0AE788800AF0A494850AE78E8C0AE3BB9B0AF0A4A8930AE5AC950AE792B90AE8AE830AF0A5B2A40AF0A59A950AE7
  AA930AE7AFAC0AE7B3830AE7B9AC0AE88BB80AE896970AE9BEA90AE8A2900AE9BEAA0AE8BAB90AE9BEAB0AE8BF8F0AE8
  959F0AE9A7A00AE988A10AE9BEAC0AF0A8B6B90AF0A190BF0AE481B10AE48AA20AE5A89A0AE9A1A80AE69DAB0AE489B6
  0AE59CBD0AE897960AF0A4A5BB0AE88ABF0AF0A7848D0AE4B2810AF0A6B5B40AE5B5BB0AF0A6AC950AF0A6BEBE0AE9BE
  AD0AE9BEAE0AE5AE960AE9BEAF0AE69BA70AE7B99B0AE6B9970AE7A78A0AE3B6880AE493830AF0A389960AF0A29E960A
  E48E9A0AE494B60AE5B3950AF0A3AC9A0AE8ABB90AE5B1B80AE3B4920AF0A395910AE5B5B80AE9BEB20AE785970AE495
  980AF0A483AC0AF0A1B8A30AE4B1B70AE3A5B80AE3918A0AF0A086A40AF0A6B1810AE8AB8C0AE4BEB40AF0A088B90AE5
  A6BF0AE885AC0AE9A1960AF0A9A3BA0AE5BCBB0A"

/-- tests/test_data/whatwg/big5_whatwg_test_encode_out.txt, part 12 -/
noncomputable def encodeOut11 : List Nat := hex! "8C400A8C410A8C420A8C430A8C440A8C450A8C460A8C470A8C480A8C490A8C4A0A8C4B0A8C4C0A8C4D0A8C4E0A8C4F0A
  8C500A8C510A8C520A8C530A8C540A8C550A8C560A8C570A8C580A8C590A8C5A0A8C5B0A8C5C0A8C5D0A8C5E0A8C5F0A
  8C600A8C610A8C620A8C630A8C640A8C650A8C660A8C670A8C680A8C690A8C6A0A8C6B0A8C6C0A8C6D0A8C6E0A8C6F0A
  8C700A8C710A8C720A8C730A8C740A8C750A8C760A8C770A8C780A8C790A8C7A0A8C7B0A8C7C0A8C7D0A8C7E0A8CA10A
  8CA20A8CA30A8CA40A8CA50A8CA70A8CA80A8CA90A8CAA0A8CAB0A8CAC0A8CAD0A8CAE0A8CAF0A8CB00A8CB10A8CB20A
  8CB30A8CB40A8CB50A8CB60A8CB70A8CB80A8CB90A8CBA0A8CBB0A8CBC0A8CBD0A8CBE0A8CBF0A8CC00A8CC10A8CC20A
  8CC30A8CC40A8CC50A8CC90A8CCA0A8CCB0A8CCC0A8CCE0A8CCF0A8CD00A8CD10A8CD20A8CD30A8CD40A8CD50A8CD60A
  8CD70A8CD80A8CD90A8CDA0A8CDB0A8CDC0A8CDD0A8CDE0A8CDF0A8CE00A8CE10A8CE20A8CE30A8CE40A8CE60A8CE70A
  8CE80A8CE90A8CEA0A8CEB0A8CEC0A8CED0A8CEE0A8CEF0A8CF00A8CF10A8CF20A8CF30A8CF40A8CF50A8CF60A8CF70A
  8CF80A8CF90A8CFA0A8CFB0A8CFC0A8CFD0A8CFE0A"

/-- tests/test_data/whatwg/big5_whatwg_test_decode_in.txt, part 13 -/
noncomputable def decodeIn12 : List Nat := hex! "8D400A8D420A8D430A8D440A8D450A8D460A8D470A8D480A8D490A8D4A0A8D4B0A8D4C0A8D4D0A8D4E0A8D4F0A8D500A
  8D510A8D520A8D530A8D540A8D550A8D560A8D570A8D580A8D590A8D5A0A8D5B0A8D5C0A8D5D0A8D5E0A8D5F0A8D600A
  8D610A8D620A8D630A8D640A8D650A8D660A8D670A8D680A8D690A8D6A0A8D6B0A8D6C0A8D6D0A8D6E0A8D6F0A8D700A
  8D710A8D720A8D730A8D740A8D750A8D760A8D770A8D780A8D790A8D7A0A8D7B0A8D7C0A8D7D0A8D7E0A8DA10A8DA20A
  8DA30A8DA40A8DA50A8DA60A8DA70A8DA80A8DA90A8DAA0A8DAB0A8DAC0A8DAD0A8DAE0A8DAF0A8DB00A8DB10A8DB20A
  8DB30A8DB40A8DB50A8DB60A8DB70A8DB80A8DB90A8DBA0A8DBB0A8DBC0A8DBD0A8DBE0A8DBF0A8DC00A8DC10A8DC20A
  8DC30A8DC40A8DC50A8DC60A8DC70A8DC80A8DC90A8DCA0A8DCB0A8DCC0A8DCD0A8DCE0A8DCF0A8DD00A8DD10A8DD20A
  8DD30A8DD40A8DD50A8DD60A8DD70A8DD80A8DD90A8DDA0A8DDB0A8DDC0A8DDD0A8DDE0A8DDF0A8DE00A8DE10A8DE20A
  8DE30A8DE40A8DE50A8DE60A8DE70A8DE80A8DE90A8DEA0A8DEB0A8DEC0A8DED0A8DEE0A8DEF0A8DF00A8DF10A8DF20A
  8DF30A8DF40A8DF50A8DF60A8DF70A8DF80A8DF90A8DFA0A8DFB0A8DFC0A8DFD0A8DFE0A"

/-- tests/test_data/whatwg/big5_whatwg_test_decode_out.txt, part 13 -/
noncomputable def decodeOut12 : List Nat := hex! "F0A0AE9F0AF0A287810AF0A8A5AD0AE484820AE49ABB0AF0A981B90AE3BC870AE9BEB30AF0AA86B50AE483B80AE39F96
  0AE49BB70AF0A6B1860AE485BC0AF0A89AB20AF0A78FBF0AE495AD0AE3A3940AF0A5929A0AE495A10AE4949B0AE4B689
  0AE4B1BB0AE4B5B60AE497AA0AE3BF880AF0A4AC8F0AE399A10AE4939E0AE492BD0AE487AD0AE5B4BE0AE5B5880AE5B5
  960AE3B7BC0AE3A08F0AE5B6A40AE5B6B90AE3A0A00AE3A0B80AE5B9820AE5BABD0AE5BCA50AE5BE830AE3A4880AE3A4
  940AE3A4BF0AE3A58D0AE683970AE684BD0AE5B3A50AE3A6890AE686B70AE686B90AE6878F0AE3A6B80AE688AC0AE68A
  900AE68BA50AE68C980AE3A7B80AE59AB10AE3A8830AE68FA20AE68FBB0AE690870AE6919A0AE3A98B0AE693800AE5B4
  950AE598A10AE9BE9F0AE3AA970AE696860AE3AABD0AE697BF0AE699930AE3ABB20AE69A920AE3ACA20AE69C960AE3AD
  820AE69EA40AE6A0800AE3AD980AE6A18A0AE6A2840AE3ADB20AE3ADB10AE3ADBB0AE6A4890AE6A5830AE7899C0AE6A5
  A40AE6A69F0AE6A6850AE3AEBC0AE6A7960AE3AF9D0AE6A9A50AE6A9B40AE6A9B10AE6AA820AE3AFAC0AE6AA990AE3AF
  B20AE6AAAB0AE6AAB50AE6AB940AE6ABB60AE6AE810AE6AF810AE6AFAA0AE6B1B50AE6B2AA0AE3B38B0AE6B4820AE6B4
  860AE6B4A60AE6B6810AE3B3AF0AE6B6A40AE6B6B10AE6B8950AE6B8980AE6B8A90AE6BA860AF0A8A7800AE6BABB0AE6
  BBA20AE6BB9A0AE9BDBF0AE6BBA80AE6BBA90AE6BCA40AE6BCB40AE3B5860AF0A3BD810AE6BE810AE6BEBE0AE3B5AA0A
  E3B5B50AE786B70AE5B2990AE3B68A0AE780AC0AE3B6910AE781900AE781940AE781AF0AE781BF0AE782890AF0A08CA5
  0AE48F810AE397B10AF0A0BB980A"

/-- tests/test_data/whatwg/big5_whatwg_test_encode_in.txt, part 13 -/
noncomputable def encodeIn12 : List Nat := hex! "F0A0AE9F0AF0A287810AF0A8A5AD0AE484820AE49ABB0AF0A981B90AE3BC870AE9BEB30AF0AA86B50AE483B80AE39F96
  0AE49BB70AF0A6B1860AE485BC0AF0A89AB20AF0A78FBF0AE495AD0AE3A3940AF0A5929A0AE495A10AE4949B0AE4B689
  0AE4B1BB0AE4B5B60AE497AA0AE3BF880AF0A4AC8F0AE399A10AE4939E0AE492BD0AE487AD0AE5B4BE0AE5B5880AE5B5
  960AE3B7BC0AE3A08F0AE5B6A40AE5B6B90AE3A0A00AE3A0B80AE5B9820AE5BABD0AE5BCA50AE5BE830AE3A4880AE3A4
  940AE3A4BF0AE3A58D0AE683970AE684BD0AE5B3A50AE3A6890AE686B70AE686B90AE6878F0AE3A6B80AE688AC0AE68A
  900AE68BA50AE68C980AE3A7B80AE59AB10AE3A8830AE68FA20AE68FBB0AE690870AE6919A0AE3A98B0AE693800AE5B4
  950AE598A10AE9BE9F0AE3AA970AE696860AE3AABD0AE697BF0AE699930AE3ABB20AE69A920AE3ACA20AE69C960AE3AD
  820AE69EA40AE6A0800AE3AD980AE6A18A0AE6A2840AE3ADB20AE3ADB10AE3ADBB0AE6A4890AE6A5830AE7899C0AE6A5
  A40AE6A69F0AE6A6850AE3AEBC0AE6A7960AE3AF9D0AE6A9A50AE6A9B40AE6A9B10AE6AA820AE3AFAC0AE6AA990AE3AF
  B20AE6AAAB0AE6AAB50AE6AB940AE6ABB60AE6AE810AE6AF810AE6AFAA0AE6B1B50AE6B2AA0AE3B38B0AE6B4820AE6B4
  860AE6B4A60AE6B6810AE3B3AF0AE6B6A40AE6B6B10AE6B8950AE6B8980AE6B8A90AE6BA860AF0A8A7800AE6BABB0AE6
  BBA20AE6BB9A0AE9BDBF0AE6BBA80AE6BBA90AE6BCA40AE6BCB40AE3B5860AF0A3BD810AE6BE810AE6BEBE0AE3B5AA0A
  E3B5B50AE786B70AE5B2990AE3B68A0AE780AC0AE3B6910AE781900AE781940AE781AF0AE781BF0AE782890AF0A08CA5
  0AE48F810AE397B10AF0A0BB980A"

/-- tests/test_data/whatwg/big5_whatwg_test_encode_out.txt, part 13 -/
noncomputable def encodeOut12 : List Nat := hex! "8D400A8D420A8D430A8D440A8D450A8D460A8D470A8D480A8D490A8D4A0A8D4B0A8D4C0A8D4D0A8D4E0A8D4F0A8D500A
  8D510A8D520A8D530A8D540A8D550A8D560A8D570A8D580A8D590A8D5A0A8D5B0A8D5C0A8D5D0A8D5E0A8D5F0A8D600A
  8D610A8D620A8D630A8D640A8D650A8D660A8D670A8D680A8D690A8D6A0A8D6B0A8D6C0A8D6D0A8D6E0A8D6F0A8D700A
  8D710A8D720A8D730A8D740A8D750A8D760A8D770A8D780A8D790A8D7A0A8D7B0A8D7C0A8D7D0A8D7E0A8DA10A8DA20A
  8DA30A8DA40A8DA50A8DA60A8DA70A8DA80A8DA90A8DAA0A8DAB0A8DAC0A8DAD0A8DAE0A8DAF0A8DB00A8DB10A8DB20A
  8DB30A8DB40A8DB50A8DB60A8DB70A8DB80A8DB90A8DBA0A8DBB0A8DBC0A8DBD0A8DBE0A8DBF0A8DC00A8DC10A8DC20A
  8DC30A8DC40A8DC50A8DC60A8DC70A8DC80A8DC90A8DCA0A8DCB0A8DCC0A8DCD0A8DCE0A8DCF0A8DD00A8DD10A8DD20A
  8DD30A8DD40A8DD50A8DD60A8DD70A8DD80A8DD90A8DDA0A8DDB0A8DDC0A8DDD0A8DDE0A8DDF0A8DE00A8DE10A8DE20A
  8DE30A8DE40A8DE50A8DE60A8DE70A8DE80A8DE90A8DEA0A8DEB0A8DEC0A8DED0A8DEE0A8DEF0A8DF00A8DF10A8DF20A
  8DF30A8DF40A8DF50A8DF60A8DF70A8DF80A8DF90A8DFA0A8DFB0A8DFC0A8DFD0A8DFE0A"

/-- tests/test_data/whatwg/big5_whatwg_test_decode_in.txt, part 14 -/
noncomputable def decodeIn13 : List Nat := hex! "8E400A8E410A8E420A8E430A8E440A8E450A8E460A8E470A8E480A8E490A8E4A0A8E4B0A8E4C0A8E4D0A8E4E0A8E4F0A
  8E500A8E510A8E520A8E530A8E540A8E550A8E560A8E570A8E580A8E590A8E5A0A8E5B0A8E5C0A8E5D0A8E5E0A8E5F0A
  8E600A8E610A8E620A8E630A8E640A8E650A8E660A8E670A8E680A8E690A8E6A0A8E6B0A8E6C0A8E6D0A8E6E0A8E6F0A
  8E700A8E710A8E720A8E730A8E740A8E750A8E760A8E770A8E780A8E790A8E7A0A8E7B0A8E7C0A8E7D0A8E7E0A8EA10A
  8EA20A8EA30A8EA40A8EA50A8EA60A8EA70A8EA80A8EA90A8EAA0A8EAB0A8EAC0A8EAD0A8EAE0A8EAF0A8EB00A8EB10A
  8EB20A8EB30A8EB40A8EB50A8EB60A8EB70A8EB80A8EB90A8EBA0A8EBB0A8EBC0A8EBD0A8EBE0A8EBF0A8EC00A8EC10A
  8EC20A8EC30A8EC40A8EC50A8EC60A8EC70A8EC80A8EC90A8ECA0A8ECB0A8ECC0A8ECD0A8ECE0A8ECF0A8ED00A8ED10A
  8ED20A8ED30A8ED40A8ED50A8ED60A8ED70A8ED80A8ED90A8EDA0A8EDB0A8EDC0A8EDD0A8EDE0A8EDF0A8EE00A8EE10A
  8EE20A8EE30A8EE40A8EE50A8EE60A8EE70A8EE80A8EE90A8EEA0A8EEB0A8EEC0A8EED0A8EEE0A8EEF0A8EF00A8EF10A
  8EF20A8EF30A8EF40A8EF50A8EF60A8EF70A8EF80A8EF90A8EFA0A8EFB0A8EFC0A8EFD0A8EFE0A"

/-- tests/test_data/whatwg/big5_whatwg_test_decode_out.txt, part 14 -/
noncomputable def decodeOut13 : List Nat := hex! "F0A3BB970AE59EBE0AF0A6BB930AE784BE0AF0A59FA00AE3998E0AE6A6A20AF0A8AFA90AE5ADB40AE7A9890AF0A5A3A1
  0AF0A993990AE7A9A50AE7A9BD0AF0A5A6AC0AE7AABB0AE7AAB00AE7AB820AE7AB830AE787910AF0A6928D0AE4878A0A
  E7AB9A0AE7AB9D0AE7ABAA0AE487AF0AE592B20AF0A5B0810AE7AC8B0AE7AD950AE7ACA90AF0A58C8E0AF0A5B3BE0AE7
  AEA20AE7ADAF0AE88E9C0AF0A5AEB40AF0A6B1BF0AE7AF900AE890A10AE7AE920AE7AEB80AF0A5B4A00AE3B6AD0AF0A5
  B1A50AE892920AE7AFBA0AE7B0860AE7B0B50AF0A5B3810AE7B1840AE7B2830AF0A4A2820AE7B2A60AE699BD0AF0A495
  B80AE7B3890AE7B3870AE7B3A60AE7B1B40AE7B3B30AE7B3B50AE7B38E0AE7B9A70AE4949D0AF0A6B9840AE7B59D0AF0
  A6BB960AE7928D0AE7B6890AE7B6AB0AE784B50AE7B6B30AE7B7920AF0A481970AF0A680A90AE7B7A40AE3B4930AE7B7
  B50AF0A19FB90AE7B7A50AF0A88DAD0AE7B89D0AF0A684A10AF0A6859A0AE7B9AE0AE7BA920AE48CAB0AE991AC0AE7B8
  A70AE7BD800AE7BD810AE7BD870AE7A4B60AF0A68B900AE9A7A10AE7BE970AF0A68D910AE7BEA30AF0A199A10AF0A081
  A80AE4959C0AF0A39DA60AE494830AF0A88CBA0AE7BFBA0AF0A692890AE880850AE880880AE8809D0AE880A80AE880AF
  0AF0AA82870AF0A6B3830AE880BB0AE880BC0AE881A10AF0A29C940AE4A6890AF0A698A60AF0A3B7A30AF0A69BA80AE6
  9CA50AE882A70AF0A8A9880AE884870AE8849A0AE5A2B00AF0A29BB60AE6B1BF0AF0A692980AF0A4BEB80AE693A70AF0
  A1928A0AE888980AF0A1A19E0AE6A9930AF0A4A9A50AF0A4AA950AE491BA0AE888A90AF0A0AC8D0AF0A6A9920AF0A3B5
  BE0AE4BFB90AF0A193BD0AE893A20AE88DA20AF0A6AC8A0AF0A4A6A70AF0A394B00AF0A19DB30AF0A3B7B80AE88AAA0A
  E6A49B0AF0AFA6940AE4879B0A"

/-- tests/test_data/whatwg/big5_whatwg_test_encode_in.txt, part 14 -/
noncomputable def encodeIn13 : List Nat := hex! "F0A3BB970AE59EBE0AF0A6BB930AE784BE0AF0A59FA00AE3998E0AE6A6A20AF0A8AFA90AE5ADB40AE7A9890AF0A5A3A1
  0AF0A993990AE7A9A50AE7A9BD0AF0A5A6AC0AE7AABB0AE7AAB00AE7AB820AE7AB830AE787910AF0A6928D0AE4878A0A
  E7AB9A0AE7AB9D0AE7ABAA0AE487AF0AE592B20AF0A5B0810AE7AC8B0AE7AD950AE7ACA90AF0A58C8E0AF0A5B3BE0AE7
  AEA20AE7ADAF0AE88E9C0AF0A5AEB40AF0A6B1BF0AE7AF900AE890A10AE7AE920AE7AEB80AF0A5B4A00AE3B6AD0AF0A5
  B1A50AE892920AE7AFBA0AE7B0860AE7B0B50AF0A5B3810AE7B1840AE7B2830AF0A4A2820AE7B2A60AE699BD0AF0A495
  B80AE7B3890AE7B3870AE7B3A60AE7B1B40AE7B3B30AE7B3B50AE7B38E0AE7B9A70AE4949D0AF0A6B9840AE7B59D0AF0
  A6BB960AE7928D0AE7B6890AE7B6AB0AE784B50AE7B6B30AE7B7920AF0A481970AF0A680A90AE7B7A40AE3B4930AE7B7
  B50AF0A19FB90AE7B7A50AF0A88DAD0AE7B89D0AF0A684A10AF0A6859A0AE7B9AE0AE7BA920AE48CAB0AE991AC0AE7B8
  A70AE7BD800AE7BD810AE7BD870AE7A4B60AF0A68B900AE9A7A10AE7BE970AF0A68D910AE7BEA30AF0A199A10AF0A081
  A80AE4959C0AF0A39DA60AE494830AF0A88CBA0AE7BFBA0AF0A692890AE880850AE880880AE8809D0AE880A80AE880AF
  0AF0AA82870AF0A6B3830AE880BB0AE880BC0AE881A10AF0A29C940AE4A6890AF0A698A60AF0A3B7A30AF0A69BA80AE6
  9CA50AE882A70AF0A8A9880AE884870AE8849A0AE5A2B00AF0A29BB60AE6B1BF0AF0A692980AF0A4BEB80AE693A70AF0
  A1928A0AE888980AF0A1A19E0AE6A9930AF0A4A9A50AF0A4AA950AE491BA0AE888A90AF0A0AC8D0AF0A6A9920AF0A3B5
  BE0AE4BFB90AF0A193BD0AE893A20AE88DA20AF0A6AC8A0AF0A4A6A70AF0A394B00AF0A19DB30AF0A3B7B80AE88AAA0A
  E6A49B0AF0AFA6940AE4879B0A"

/-- tests/test_data/whatwg/big5_whatwg_test_encode_out.txt, part 14 -/
noncomputable def encodeOut13 : List Nat := hex! "8E400A8E410A8E420A8E430A8E440A8E450A8E460A8E470A8E480A8E490A8E4A0A8E4B0A8E4C0A8E4D0A8E4E0A8E4F0A
  8E500A8E510A8E520A8E530A8E540A8E550A8E560A8E570A8E580A8E590A8E5A0A8E5B0A8E5C0A8E5D0A8E5E0A8E5F0A
  8E600A8E610A8E620A8E630A8E640A8E650A8E660A8E670A8E680A8E690A8E6A0A8E6B0A8E6C0A8E6D0A8E6E0A8E6F0A
  8E700A8E710A8E720A8E730A8E740A8E750A8E760A8E770A8E780A8E790A8E7A0A8E7B0A8E7C0A8E7D0A8E7E0A8EA10A
  8EA20A8EA30A8EA40A8EA50A8EA60A8EA70A8EA80A8EA90A8EAA0A8EAB0A8EAC0A8EAD0A8EAE0A8EAF0A8EB00A8EB10A
  8EB20A8EB30A8EB40A8EB50A8EB60A8EB70A8EB80A8EB90A8EBA0A8EBB0A8EBC0A8EBD0A8EBE0A8EBF0A8EC00A8EC10A
  8EC20A8EC30A8EC40A8EC50A8EC60A8EC70A8EC80A8EC90A8ECA0A8ECB0A8ECC0A8ECD0A8ECE0A8ECF0A8ED00A8ED10A
  8ED20A8ED30A8ED40A8ED50A8ED60A8ED70A8ED80A8ED90A8EDA0A8EDB0A8EDC0A8EDD0A8EDE0A8EDF0A8EE00A8EE10A
  8EE20A8EE30A8EE40A8EE50A8EE60A8EE70A8EE80A8EE90A8EEA0A8EEB0A8EEC0A8EED0A8EEE0A8EEF0A8EF00A8EF10A
  8EF20A8EF30A8EF40A8EF50A8EF60A8EF70A8EF80A8EF90A8EFA0A8EFB0A8EFC0A8EFD0A8EFE0A"

/-- tests/test_data/whatwg/big5_whatwg_test_decode_in.txt, part 15 -/
noncomputable def decodeIn14 : List Nat := hex! "8F400A8F410A8F420A8F430A8F440A8F450A8F460A8F470A8F480A8F490A8F4A0A8F4B0A8F4C0A8F4D0A8F4E0A8F4F0A
  8F500A8F510A8F520A8F530A8F540A8F550A8F560A8F570A8F580A8F590A8F5A0A8F5B0A8F5C0A8F5D0A8F5E0A8F5F0A
  8F600A8F610A8F620A8F630A8F640A8F650A8F660A8F670A8F680A8F690A8F6A0A8F6B0A8F6C0A8F6D0A8F6E0A8F6F0A
  8F700A8F710A8F720A8F730A8F740A8F750A8F760A8F770A8F780A8F790A8F7A0A8F7B0A8F7C0A8F7D0A8F7E0A8FA10A
  8FA20A8FA30A8FA40A8FA50A8FA60A8FA70A8FA80A8FA90A8FAA0A8FAB0A8FAC0A8FAD0A8FAE0A8FAF0A8FB00A8FB10A
  8FB20A8FB30A8FB40A8FB50A8FB60A8FB70A8FB80A8FB90A8FBA0A8FBB0A8FBC0A8FBD0A8FBE0A8FBF0A8FC00A8FC10A
  8FC20A8FC30A8FC40A8FC50A8FC60A8FC70A8FC80A8FC90A8FCA0A8FCB0A8FCC0A8FCD0A8FCE0A8FCF0A8FD00A8FD10A
  8FD20A8FD30A8FD40A8FD50A8FD60A8FD70A8FD80A8FD90A8FDA0A8FDB0A8FDC0A8FDD0A8FDE0A8FDF0A8FE00A8FE10A
  8FE20A8FE30A8FE40A8FE50A8FE60A8FE70A8FE80A8FE90A8FEA0A8FEB0A8FEC0A8FED0A8FEE0A8FEF0A8FF00A8FF10A
  8FF20A8FF30A8FF40A8FF50A8FF60A8FF70A8FF80A8FF90A8FFA0A8FFB0A8FFC0A8FFD0A8FFE0A"

/-- tests/test_data/whatwg/big5_whatwg_test_decode_out.txt, part 15 -/
noncomputable def decodeOut14 : List Nat := hex! "E8958B0AE88B900AE88C9A0AF0A0B8960AF0A19EB40AE39B810AF0A385BD0AF0A3959A0AE889BB0AE88BA20AE88C980A
  F0A3BA8B0AF0A6B6A30AF0A6AC850AF0A6AE970AF0A3978E0AE3B6BF0AE88C9D0AE597AC0AE88E850AE4948B0AF0A6B6
  A50AE88EAC0AE88F810AE88F930AE391BE0AF0A6BB940AE6A9970AE8959A0AE392960AF0A6B9820AF0A2BBAF0AE89198
  0AF0A5AFA40AE891B10AE3B7930AE493A40AE6AAA70AE8918A0AF0A3B2B50AE7A5980AE892A80AF0A6AE960AF0A6B9B7
  0AF0A6B9830AE8939E0AE8908F0AE88E910AE492A00AE892930AE893A40AF0A5B2910AE489800AF0A5B3800AE495830A
  E894B40AE5ABB20AF0A6BA990AE494A70AE895B30AE494960AE69EBF0AE898960AF0A898A50AF0A898BB0AE897810AF0
  A782880AE898820AF0A196820AF0A7838D0AF0AFA6B20AE495AA0AE898A80AE399880AF0A1A2A20AE58FB70AF0A78E9A
  0AE899BE0AE89DB10AF0AA83B80AE89FAE0AF0A2B0A70AE89EB10AE89F9A0AE8A08F0AE599A10AE899AC0AE6A1960AE4
  988F0AE8A1850AE8A1860AF0A797A00AF0A3B6B90AF0A797A40AE8A19E0AE8A29C0AE4999B0AE8A2B40AE8A2B50AE68F
  810AE8A3850AE79DB70AF0A79C8F0AE8A6870AE8A68A0AE8A6A60AE8A6A90AE8A6A70AE8A6BC0AF0A8A8A50AE8A7A70A
  F0A7A4A40AF0A7AABD0AE8AA9C0AE79E930AE987BE0AE8AA900AF0A7A9990AE7ABA90AF0A7ACBA0AF0A3BE8F0AE49C93
  0AF0A7ACB80AE785BC0AE8AC8C0AE8AC9F0AF0A590B00AF0A595A50AE8ACBF0AE8AD8C0AE8AD8D0AE8AAA90AF0A4A9BA
  0AE8AE900AE8AE9B0AE8AAAF0AF0A19B9F0AE498950AE8A18F0AE8B29B0AF0A7B5940AF0A7B68F0AF0AFA7940AE39CA5
  0AF0A7B5930AE8B3960AF0A7B6980AF0A7B6BD0AE8B4920AE8B4830AF0A1A4900AE8B39B0AE7819C0AE8B4910AF0A4B3
  890AE3BB900AE8B5B70A"

/-- tests/test_data/whatwg/big5_whatwg_test_encode_in.txt, part 15 -/
noncomputable def encodeIn14 : List Nat := hex! "E8958B0AE88B900AE88C9A0AF0A0B8960AF0A19EB40AE39B810AF0A385BD0AF0A3959A0AE889BB0AE88BA20AE88C980A
  F0A3BA8B0AF0A6B6A30AF0A6AC850AF0A6AE970AF0A3978E0AE3B6BF0AE88C9D0AE597AC0AE88E850AE4948B0AF0A6B6
  A50AE88EAC0AE88F810AE88F930AE391BE0AF0A6BB940AE6A9970AE8959A0AE392960AF0A6B9820AF0A2BBAF0AE89198
  0AF0A5AFA40AE891B10AE3B7930AE493A40AE6AAA70AE8918A0AF0A3B2B50AE7A5980AE892A80AF0A6AE960AF0A6B9B7
  0AF0A6B9830AE8939E0AE8908F0AE88E910AE492A00AE892930AE893A40AF0A5B2910AE489800AF0A5B3800AE495830A
  E894B40AE5ABB20AF0A6BA990AE494A70AE895B30AE494960AE69EBF0AE898960AF0A898A50AF0A898BB0AE897810AF0
  A782880AE898820AF0A196820AF0A7838D0AF0AFA6B20AE495AA0AE898A80AE399880AF0A1A2A20AE58FB70AF0A78E9A
  0AE899BE0AE89DB10AF0AA83B80AE89FAE0AF0A2B0A70AE89EB10AE89F9A0AE8A08F0AE599A10AE899AC0AE6A1960AE4
  988F0AE8A1850AE8A1860AF0A797A00AF0A3B6B90AF0A797A40AE8A19E0AE8A29C0AE4999B0AE8A2B40AE8A2B50AE68F
  810AE8A3850AE79DB70AF0A79C8F0AE8A6870AE8A68A0AE8A6A60AE8A6A90AE8A6A70AE8A6BC0AF0A8A8A50AE8A7A70A
  F0A7A4A40AF0A7AABD0AE8AA9C0AE79E930AE987BE0AE8AA900AF0A7A9990AE7ABA90AF0A7ACBA0AF0A3BE8F0AE49C93
  0AF0A7ACB80AE785BC0AE8AC8C0AE8AC9F0AF0A590B00AF0A595A50AE8ACBF0AE8AD8C0AE8AD8D0AE8AAA90AF0A4A9BA
  0AE8AE900AE8AE9B0AE8AAAF0AF0A19B9F0AE498950AE8A18F0AE8B29B0AF0A7B5940AF0A7B68F0AF0AFA7940AE39CA5
  0AF0A7B5930AE8B3960AF0A7B6980AF0A7B6BD0AE8B4920AE8B4830AF0A1A4900AE8B39B0AE7819C0AE8B4910AF0A4B3
  890AE3BB900AE8B5B70A"

/-- tests/test_data/whatwg/big5_whatwg_test_encode_out.txt, part 15 -/
noncomputable def encodeOut14 : List Nat := hex! "8F400A8F410A8F420A8F430A8F440A8F450A8F460A8F470A8F480A8F490A8F4A0A8F4B0A8F4C0A8F4D0A8F4E0A8F4F0A
  8F500A8F510A8F520A8F530A8F540A8F550A8F560A8F570A8F580A8F590A8F5A0A8F5B0A8F5C0A8F5D0A8F5E0A8F5F0A
  8F600A8F610A8F620A8F630A8F640A8F650A8F660A8F670A8F680A8F690A8F6A0A8F6B0A8F6C0A8F6D0A8F6E0A8F6F0A
  8F700A8F710A8F720A8F730A8F740A8F750A8F760A8F770A8F780A8F790A8F7A0A8F7B0A8F7C0A8F7D0A8F7E0A8FA10A
  8FA20A8FA30A8FA40A8FA50A8FA60A8FA70A8FA80A8FA90A8FAA0A8FAB0A8FAC0A8FAD0A8FAE0A8FAF0A8FB00A8FB10A
  8FB20A8FB30A8FB40A8FB50A8FB60A8FB70A8FB80A8FB90A8FBA0A8FBB0A8FBC0A8FBD0A8FBE0A8FBF0A8FC00A8FC10A
  8FC20A8FC30A8FC40A8FC50A8FC60A8FC70A8FC80A8FC90A8FCA0A8FCB0A8FCC0A8FCD0A8FCE0A8FCF0A8FD00A8FD10A
  8FD20A8FD30A8FD40A8FD50A8FD60A8FD70A8FD80A8FD90A8FDA0A8FDB0A8FDC0A8FDD0A8FDE0A8FDF0A8FE00A8FE10A
  8FE20A8FE30A8FE40A8FE50A8FE60A8FE70A8FE80A8FE90A8FEA0A8FEB0A8FEC0A8FED0A8FEE0A8FEF0A8FF00A8FF10A
  8FF20A8FF30A8FF40A8FF50A8FF60A8FF70A8FF80A8FF90A8FFA0A8FFB0A8FFC0A8FFD0A8FFE0A"

/-- tests/test_data/whatwg/big5_whatwg_test_decode_in.txt, part 16 -/
noncomputable def decodeIn15 : List Nat := hex! "90400A90410A90420A90430A90440A90450A90460A90470A90480A90490A904A0A904B0A904C0A904D0A904E0A904F0A
  90500A90510A90520A90530A90540A90550A90560A90570A90580A90590A905A0A905B0A905C0A905D0A905E0A905F0A
  90600A90610A90620A90630A90640A90650A90660A90670A90680A90690A906A0A906B0A906C0A906D0A906E0A906F0A
  90700A90710A90720A90730A90740A90750A90760A90770A90780A90790A907A0A907B0A907C0A907D0A907E0A90A10A
  90A20A90A30A90A40A90A50A90A60A90A70A90A80A90A90A90AA0A90AB0A90AC0A90AD0A90AE0A90AF0A90B00A90B10A
  90B20A90B30A90B40A90B50A90B60A90B70A90B80A90B90A90BA0A90BB0A90BC0A90BD0A90BE0A90BF0A90C00A90C10A
  90C20A90C30A90C40A90C50A90C60A90C70A90C80A90C90A90CA0A90CB0A90CC0A90CD0A90CE0A90CF0A90D00A90D10A
  90D20A90D30A90D40A90D50A90D60A90D70A90D80A90D90A90DA0A90DB0A90DC0A90DD0A90DE0A90DF0A90E00A90E10A
  90E20A90E30A90E40A90E50A90E60A90E70A90E80A90E90A90EA0A90EB0A90EC0A90ED0A90EE0A90EF0A90F00A90F10A
  90F20A90F30A90F40A90F50A90F60A90F70A90F80A90F90A90FA0A90FB0A90FC0A90FD0A90FE0A"

/-- tests/test_data/whatwg/big5_whatwg_test_decode_out.txt, part 16 -/
noncomputable def decodeOut15 : List Nat := hex! "E8B6A90AF0A880820AF0A180940AF0A4A68A0AE3ADBC0AF0A886BC0AF0A7848C0AE7ABA70AE8BAAD0AE8BAB60AE8BB83
  0AE98B940AE8BC990AE8BCAD0AF0A88DA50AF0A890920AE8BEA50AE98C830AF0AA8A9F0AF0A0A9900AE8BEB30AE4A4AA
  0AF0A8A79E0AF0A894BD0AF0A3B6BB0AE5BBB80AF0A389A20AE8BFB90AF0AA80940AF0A89ABC0AF0A894810AF0A28CA5
  0AE3A6800AF0A6BB970AE980B70AF0A894BC0AF0A7AABE0AE981A10AF0A895AC0AF0A8988B0AE982A80AF0A89C930AE9
  83840AF0A89BA60AE982AE0AE983BD0AE985A70AE3ABB00AE986A90AE987840AE7B2AC0AF0A8A4B30AF0A1BA890AE988
  8E0AE6B29F0AE989810AE989A20AF0A596B90AE98AB90AF0A8AB860AF0A3B29B0AF0A8AC8C0AF0A5979B0AF0A0B4B10A
  E98CAC0AE98DAB0AF0A8ABA10AF0A8AFAB0AE7828F0AE5AB830AF0A8ABA20AF0A8ABA50AE4A5A50AE989840AF0A8AFAC
  0AF0A8B0B90AF0A8AFBF0AE98DB30AE9919B0AE8BABC0AE996850AE996A60AE990A60AE996A00AE6BFB60AE48AB90AF0
  A299BA0AF0A89B980AF0A189BC0AF0A3B8AE0AE4A79F0AE6B09C0AE999BB0AE99A960AE485AC0AE99AA30AF0A6BB950A
  E6879A0AE99AB60AE7A3B50AF0A8ABA00AE99ABD0AE58F8C0AE4A6A10AF0A6B2B80AF0A089B40AF0A690900AF0A982AF
  0AF0A983A50AF0A4AB910AF0A1A4950AF0A38C8A0AE99CB10AE899820AE99CB60AE4A88F0AE494BD0AE496850AF0A4AB
  A90AE781B50AE5AD810AE99C9B0AE99D9C0AF0A987950AE99D970AE5AD8A0AF0A987AB0AE99D9F0AE990A50AE583900A
  F0A382B70AF0A382BC0AE99E890AE99E9F0AE99EB10AE99EBE0AE99F800AE99F920AE99FA00AF0A591AC0AE99FAE0AE7
  909C0AF0A990B30AE99FBF0AE99FB50AF0A9909D0AF0A7A5BA0AE4AB910AE9A0B40AE9A0B30AE9A18B0AE9A1A60AE3AC
  8E0AF0A785B50AE3B5910AF0A098B00AF0A4859C0A"

/-- tests/test_data/whatwg/big5_whatwg_test_encode_in.txt, part 16 -/
noncomputable def encodeIn15 : List Nat := hex! "E8B6A90AF0A880820AF0A180940AF0A4A68A0AE3ADBC0AF0A886BC0AF0A7848C0AE7ABA70AE8BAAD0AE8BAB60AE8BB83
  0AE98B940AE8BC990AE8BCAD0AF0A88DA50AF0A890920AE8BEA50AE98C830AF0AA8A9F0AF0A0A9900AE8BEB30AE4A4AA
  0AF0A8A79E0AF0A894BD0AF0A3B6BB0AE5BBB80AF0A389A20AE8BFB90AF0AA80940AF0A89ABC0AF0A894810AF0A28CA5
  0AE3A6800AF0A6BB970AE980B70AF0A894BC0AF0A7AABE0AE981A10AF0A895AC0AF0A8988B0AE982A80AF0A89C930AE9
  83840AF0A89BA60AE982AE0AE983BD0AE985A70AE3ABB00AE986A90AE987840AE7B2AC0AF0A8A4B30AF0A1BA890AE988
  8E0AE6B29F0AE989810AE989A20AF0A596B90AE98AB90AF0A8AB860AF0A3B29B0AF0A8AC8C0AF0A5979B0AF0A0B4B10A
  E98CAC0AE98DAB0AF0A8ABA10AF0A8AFAB0AE7828F0AE5AB830AF0A8ABA20AF0A8ABA50AE4A5A50AE989840AF0A8AFAC
  0AF0A8B0B90AF0A8AFBF0AE98DB30AE9919B0AE8BABC0AE996850AE996A60AE990A60AE996A00AE6BFB60AE48AB90AF0
  A299BA0AF0A89B980AF0A189BC0AF0A3B8AE0AE4A79F0AE6B09C0AE999BB0AE99A960AE485AC0AE99AA30AF0A6BB950A
  E6879A0AE99AB60AE7A3B50AF0A8ABA00AE99ABD0AE58F8C0AE4A6A10AF0A6B2B80AF0A089B40AF0A690900AF0A982AF
  0AF0A983A50AF0A4AB910AF0A1A4950AF0A38C8A0AE99CB10AE899820AE99CB60AE4A88F0AE494BD0AE496850AF0A4AB
  A90AE781B50AE5AD810AE99C9B0AE99D9C0AF0A987950AE99D970AE5AD8A0AF0A987AB0AE99D9F0AE990A50AE583900A
  F0A382B70AF0A382BC0AE99E890AE99E9F0AE99EB10AE99EBE0AE99F800AE99F920AE99FA00AF0A591AC0AE99FAE0AE7
  909C0AF0A990B30AE99FBF0AE99FB50AF0A9909D0AF0A7A5BA0AE4AB910AE9A0B40AE9A0B30AE9A18B0AE9A1A60AE3AC
  8E0AF0A785B50AE3B5910AF0A098B00AF0A4859C0A"

/-- tests/test_data/whatwg/big5_whatwg_test_encode_out.txt, part 16 -/
noncomputable def encodeOut15 : List Nat := hex! "90400A90410A90420A90430A90440A90450A90460A90470A90480A90490A904A0A904B0A904C0A904D0A904E0A904F0A
  90500A90510A90520A90530A90540A90550A90560A90570A90580A90590A905A0A905B0A905C0A905D0A905E0A905F0A
  90600A90610A90620A90630A90640A90650A90660A90670A90680A90690A906A0A906B0A906C0A906D0A906E0A906F0A
  90700A90710A90720A90730A90740A90750A90760A90770A90780A90790A907A0A907B0A907C0A907D0A907E0A90A10A
  90A20A90A30A90A40A90A50A90A60A90A70A90A80A90A90A90AA0A90AB0A90AC0A90AD0A90AE0A90AF0A90B00A90B10A
  90B20A90B30A90B40A90B50A90B60A90B70A90B80A90B90A90BA0A90BB0A90BC0A90BD0A90BE0A90BF0A90C00A90C10A
  90C20A90C30A90C40A90C50A90C60A90C70A90C80A90C90A90CA0A90CB0A90CC0A90CD0A90CE0A90CF0A90D00A90D10A
  90D20A90D30A90D40A90D50A90D60A90D70A90D80A90D90A90DA0A90DB0A90DC0A90DD0A90DE0A90DF0A90E00A90E10A
  90E20A90E30A90E40A90E50A90E60A90E70A90E80A90E90A90EA0A90EB0A90EC0A90ED0A90EE0A90EF0A90F00A90F10A
  90F20A90F30A90F40A90F50A90F60A90F70A90F80A90F90A90FA0A90FB0A90FC0A90FD0A90FE0A"

/-- tests/test_data/whatwg/big5_whatwg_test_decode_in.txt, part 17 -/
noncomputable def decodeIn16 : List Nat := hex! "91400A91410A91420A91430A91440A91450A91460A91470A91480A91490A914A0A914B0A914C0A914D0A914E0A914F0A
  91500A91510A91520A91530A91540A91550A91560A91570A91580A91590A915A0A915B0A915C0A915D0A915E0A915F0A
  91600A91610A91620A91630A91640A91650A91660A91670A91680A91690A916A0A916B0A916C0A916D0A916E0A916F0A
  91700A91710A91720A91730A91740A91750A91760A91770A91780A91790A917A0A917B0A917C0A917D0A917E0A91A10A
  91A20A91A30A91A40A91A50A91A60A91A70A91A80A91A90A91AA0A91AB0A91AC0A91AD0A91AE0A91AF0A91B00A91B10A
  91B20A91B30A91B40A91B50A91B60A91B70A91B80A91B90A91BA0A91BB0A91BC0A91BD0A91BE0A91BF0A91C00A91C10A
  91C20A91C30A91C40A91C50A91C60A91C70A91C80A91C90A91CA0A91CB0A91CC0A91CD0A91CE0A91CF0A91D00A91D10A
  91D20A91D30A91D40A91D50A91D60A91D70A91D80A91D90A91DA0A91DB0A91DC0A91DD0A91DE0A91DF0A91E00A91E10A
  91E20A91E30A91E40A91E50A91E60A91E70A91E80A91E90A91EA0A91EB0A91EC0A91ED0A91EE0A91EF0A91F00A91F10A
  91F20A91F30A91F40A91F50A91F60A91F70A91F80A91F90A91FA0A91FB0A91FC0A91FD0A91FE0A"

/-- tests/test_data/whatwg/big5_whatwg_test_decode_out.txt, part 17 -/
noncomputable def decodeOut16 : List Nat := hex! "F0A59C860AE9A38A0AE9A2B70AE9A3880AE9A3870AE4ABBF0AF0A6B4A70AF0A19B930AE596B00AE9A3A10AE9A3A60AE9
  A3AC0AE98DB80AE9A4B90AF0A4A8A90AE4ADB20AF0A9A1970AF0A9A4850AE9A7B50AE9A88C0AE9A8BB0AE9A8900AE9A9
  980AF0A59CA50AE39B840AF0A982B10AF0A9AF950AE9ABA00AE9ABA20AF0A9AC850AE9ABB40AE4B08E0AE9AC940AE9AC
  AD0AF0A898800AE580B40AE9ACB40AF0A6A6A80AE3A3830AF0A381BD0AE9AD900AE9AD800AF0A9B4BE0AE5A9850AF0A1
  A1A30AE9AE8E0AF0A4898B0AE9B0820AE9AFBF0AE9B08C0AF0A9B9A80AE9B7940AF0A9BEB70AF0AA86920AF0AA86AB0A
  F0AA83A10AF0AA84A30AF0AA879F0AE9B5BE0AE9B6830AF0AA84B40AE9B88E0AE6A2880AE9B7840AF0A2859B0AF0AA86
  930AF0AA88A00AF0A1A4BB0AF0AA88B30AE9B4B90AF0AA82B90AF0AA8AB40AE9BA900AE9BA950AE9BA9E0AE9BAA20AE4
  B4B40AE9BAAA0AE9BAAF0AF0A48DA40AE9BB810AE3ADA00AE3A7A50AE3B49D0AE4BCB20AE39EBE0AF0A8B0AB0AE9BC82
  0AE9BC880AE4AE960AE990A40AF0A6B6A20AE9BC970AE9BC960AE9BCB90AE59A9F0AE59A8A0AE9BD850AE9A6B80AF0A9
  828B0AE99FB20AE891BF0AE9BDA20AE9BDA90AE7AB9C0AE9BE8E0AE788960AE4AEBE0AF0A4A5B50AF0A4A6BB0AE785B7
  0AF0A4A7B80AF0A48D880AF0A4A9910AE78E9E0AF0A8AF9A0AF0A1A3BA0AE7A69F0AF0A8A5BE0AF0A8B8B60AE98DA90A
  E98FB30AF0A8A9840AE98BAC0AE98E810AE98F8B0AF0A8A5AC0AF0A492B90AE788970AE3BBAB0AE79DB20AE7A9830AE7
  83900AF0A491B30AF0A48FB80AE785BE0AF0A19FAF0AE782A30AF0A1A2BE0AF0A396990AE3BB870AF0A1A2850AF0A590
  AF0AF0A19FB80AE39CA20AF0A19BBB0AF0A1A0B90AE39BA10AF0A19DB40AF0A1A3910AF0A5BD8B0AE39CA30AF0A19B80
  0AE59D9B0AF0A4A8A50AF0A18FBE0AF0A18AA80A"

/-- tests/test_data/whatwg/big5_whatwg_test_encode_in.txt, part 17 -/
noncomputable def encodeIn16 : List Nat := hex! "F0A59C860AE9A38A0AE9A2B70AE9A3880AE9A3870AE4ABBF0AF0A6B4A70AF0A19B930AE596B00AE9A3A10AE9A3A60AE9
  A3AC0AE98DB80AE9A4B90AF0A4A8A90AE4ADB20AF0A9A1970AF0A9A4850AE9A7B50AE9A88C0AE9A8BB0AE9A8900AE9A9
  980AF0A59CA50AE39B840AF0A982B10AF0A9AF950AE9ABA00AE9ABA20AF0A9AC850AE9ABB40AE4B08E0AE9AC940AE9AC
  AD0AF0A898800AE580B40AE9ACB40AF0A6A6A80AE3A3830AF0A381BD0AE9AD900AE9AD800AF0A9B4BE0AE5A9850AF0A1
  A1A30AE9AE8E0AF0A4898B0AE9B0820AE9AFBF0AE9B08C0AF0A9B9A80AE9B7940AF0A9BEB70AF0AA86920AF0AA86AB0A
  F0AA83A10AF0AA84A30AF0AA879F0AE9B5BE0AE9B6830AF0AA84B40AE9B88E0AE6A2880AE9B7840AF0A2859B0AF0AA86
  930AF0AA88A00AF0A1A4BB0AF0AA88B30AE9B4B90AF0AA82B90AF0AA8AB40AE9BA900AE9BA950AE9BA9E0AE9BAA20AE4
  B4B40AE9BAAA0AE9BAAF0AF0A48DA40AE9BB810AE3ADA00AE3A7A50AE3B49D0AE4BCB20AE39EBE0AF0A8B0AB0AE9BC82
  0AE9BC880AE4AE960AE990A40AF0A6B6A20AE9BC970AE9BC960AE9BCB90AE59A9F0AE59A8A0AE9BD850AE9A6B80AF0A9
  828B0AE99FB20AE891BF0AE9BDA20AE9BDA90AE7AB9C0AE9BE8E0AE788960AE4AEBE0AF0A4A5B50AF0A4A6BB0AE785B7
  0AF0A4A7B80AF0A48D880AF0A4A9910AE78E9E0AF0A8AF9A0AF0A1A3BA0AE7A69F0AF0A8A5BE0AF0A8B8B60AE98DA90A
  E98FB30AF0A8A9840AE98BAC0AE98E810AE98F8B0AF0A8A5AC0AF0A492B90AE788970AE3BBAB0AE79DB20AE7A9830AE7
  83900AF0A491B30AF0A48FB80AE785BE0AF0A19FAF0AE782A30AF0A1A2BE0AF0A396990AE3BB870AF0A1A2850AF0A590
  AF0AF0A19FB80AE39CA20AF0A19BBB0AF0A1A0B90AE39BA10AF0A19DB40AF0A1A3910AF0A5BD8B0AE39CA30AF0A19B80
  0AE59D9B0AF0A4A8A50AF0A18FBE0AF0A18AA80A"

/-- tests/test_data/whatwg/big5_whatwg_test_encode_out.txt, part 17 -/
noncomputable def encodeOut16 : List Nat := hex! "91400A91410A91420A91430A91440A91450A91460A91470A91480A91490A914A0A914B0A914C0A914D0A914E0A914F0A
  91500A91510A91520A91530A91540A91550A91560A91570A91580A91590A915A0A915B0A915C0A915D0A915E0A915F0A
  91600A91610A91620A91630A91640A91650A91660A91670A91680A91690A916A0A916B0A916C0A916D0A916E0A916F0A
  91700A91710A91720A91730A91740A91750A91760A91770A91780A91790A917A0A917B0A917C0A917D0A917E0A91A10A
  91A20A91A30A91A40A91A50A91A60A91A70A91A80A91A90A91AA0A91AB0A91AC0A91AD0A91AE0A91AF0A91B00A91B10A
  91B20A91B30A91B40A91B50A91B60A91B70A91B80A91B90A91BA0A91BB0A91BC0A91BD0A91BE0A91BF0A91C00A91C10A
  91C20A91C30A91C40A91C50A91C60A91C70A91C80A91C90A91CA0A91CB0A91CC0A91CD0A91CE0A91CF0A91D00A91D10A
  91D20A91D30A91D40A91D50A91D60A91D70A91D80A91D90A91DA0A91DB0A91DC0A91DD0A91DE0A91DF0A91E00A91E10A
  91E20A91E30A91E40A91E50A91E60A91E70A91E80A91E90A91EA0A91EB0A91EC0A91ED0A91EE0A91EF0A91F00A91F10A
  91F20A91F30A91F40A91F50A91F60A91F70A91F80A91F90A91FA0A91FB0A91FC0A91FD0A91FE0A"

/-- tests/test_data/whatwg/big5_whatwg_test_decode_in.txt, part 18 -/
noncomputable def decodeIn17 : List Nat := hex! "92400A92410A92420A92430A92440A92450A92460A92470A92480A92490A924A0A924B0A924C0A924D0A924E0A924F0A
  92500A92510A92520A92530A92540A92550A92560A92570A92580A92590A925A0A925B0A925C0A925D0A925E0A925F0A
  92600A92610A92620A92630A92640A92650A92660A92670A92680A92690A926A0A926B0A926C0A926D0A926E0A926F0A
  92700A92710A92720A92730A92740A92750A92760A92770A92780A92790A927A0A927B0A927C0A927D0A927E0A92A10A
  92A20A92A30A92A40A92A50A92A60A92A70A92A80A92A90A92AA0A92AB0A92AC0A92AD0A92AE0A92AF0A92B00A92B10A
  92B20A92B30A92B40A92B50A92B60A92B70A92B80A92B90A92BA0A92BB0A92BC0A92BD0A92BE0A92BF0A92C00A92C10A
  92C20A92C30A92C40A92C50A92C60A92C70A92C80A92C90A92CA0A92CB0A92CC0A92CD0A92CE0A92CF0A92D00A92D10A
  92D20A92D30A92D40A92D50A92D60A92D70A92D80A92D90A92DA0A92DB0A92DC0A92DD0A92DE0A92DF0A92E00A92E10A
  92E20A92E30A92E40A92E50A92E60A92E70A92E80A92E90A92EA0A92EB0A92EC0A92ED0A92EE0A92EF0A92F00A92F10A
  92F20A92F30A92F40A92F50A92F60A92F70A92F80A92F90A92FA0A92FB0A92FC0A92FD0A92FE0A"

/-- tests/test_data/whatwg/big5_whatwg_test_decode_out.txt, part 18 -/
noncomputable def decodeOut17 : List Nat := hex! "F0A18F860AF0A192B60AE894830AF0A39AA60AE894830AE891950AF0A4A6940AF0A785A50AF0A3B8B10AF0A5959C0AF0
  A3BBBB0AF0A781920AE493B40AF0A39BAE0AF0A9A69D0AF0A6BCA60AE69FB90AE39CB30AE3B0950AE3B7A70AE5A1AC0A
  F0A1A4A20AE6A0900AE481970AF0A39CBF0AF0A483A10AF0A4828B0AF0A4848F0AF0A6B0A10AE5938B0AE59A9E0AF0A6
  9AB10AE59A920AF0A0BF9F0AF0A0AEA80AF0A0B88D0AE98F860AF0A8AC930AE98E9C0AE4BBB80AE584AB0AE3A0990AF0
  A490B60AE4BABC0AF0A091A50AF0A08DBF0AE4BD8B0AE4BE8A0AF0A599910AE5A9A80AF0A086AB0AF0A08F8B0AE3A699
  0AF0A08C8A0AF0A090940AE390B50AE4BCA90AF0A08B800AF0A8BAB30AF0A089B50AE8AB9A0AF0A0888C0AE4BA980AE5
  838D0AE5848D0AE4BEA20AE4BC830AF0A4A88E0AF0A3BA8A0AE4BD820AE580AE0AE581AC0AE582810AE4BF8C0AE4BFA5
  0AE581980AE583BC0AE585990AE5859B0AE5859D0AE5859E0AE6B9B60AF0A396950AF0A3B8B90AF0A3BABF0AE6B5B20A
  F0A1A2840AF0A3BA890AE586A80AE587830AF0A097A00AE4939D0AF0A092A30AF0A092920AF0A092910AE8B5BA0AF0A8
  AA9C0AF0A09C8E0AE589990AE58AA40AF0A0A1B30AE58BA10AE98DAE0AE499BA0AE7868C0AF0A48E8C0AF0A0B0A00AF0
  A4A6AC0AF0A183A40AE6A7910AF0A0B89D0AE791B90AE3BB9E0AE792990AE790940AE791960AE78E980AE4AE8E0AF0A4
  AABC0AF0A4828D0AE58F900AE396840AE7888F0AF0A483890AE596B40AF0A08D850AE5938D0AF0A0AF860AE59C9D0AE9
  899D0AE99BB40AE98DA60AE59F9D0AE59E8D0AE59DBF0AE398BE0AE5A38B0AE5AA990AF0A8A9860AF0A19BBA0AF0A19D
  AF0AF0A19C900AE5A8AC0AE5A6B80AE98A8F0AE5A9BE0AE5AB8F0AE5A8920AF0A5A5860AF0A1A7B30AF0A1A1A10AF0A4
  8A950AE39BB50AE6B4850AE791830AE5A8A10AF0A5BA830A"

/-- tests/test_data/whatwg/big5_whatwg_test_encode_in.txt, part 18 -/
noncomputable def encodeIn17 : List Nat := hex! "F0A18F860AF0A192B60AE894830AF0A39AA60AE891950AF0A4A6940AF0A785A50AF0A3B8B10AF0A5959C0AF0A3BBBB0A
  F0A781920AE493B40AF0A39BAE0AF0A9A69D0AF0A6BCA60AE69FB90AE39CB30AE3B0950AE3B7A70AE5A1AC0AF0A1A4A2
  0AE6A0900AE481970AF0A39CBF0AF0A483A10AF0A4828B0AF0A4848F0AF0A6B0A10AE5938B0AE59A9E0AF0A69AB10AE5
  9A920AF0A0BF9F0AF0A0AEA80AF0A0B88D0AE98F860AF0A8AC930AE98E9C0AE4BBB80AE584AB0AE3A0990AF0A490B60A
  E4BABC0AF0A091A50AF0A08DBF0AE4BD8B0AE4BE8A0AF0A599910AE5A9A80AF0A086AB0AF0A08F8B0AE3A6990AF0A08C
  8A0AF0A090940AE390B50AE4BCA90AF0A08B800AF0A8BAB30AF0A089B50AE8AB9A0AF0A0888C0AE4BA980AE5838D0AE5
  848D0AE4BEA20AE4BC830AF0A4A88E0AF0A3BA8A0AE4BD820AE580AE0AE581AC0AE582810AE4BF8C0AE4BFA50AE58198
  0AE583BC0AE585990AE5859B0AE5859D0AE5859E0AE6B9B60AF0A396950AF0A3B8B90AF0A3BABF0AE6B5B20AF0A1A284
  0AF0A3BA890AE586A80AE587830AF0A097A00AE4939D0AF0A092A30AF0A092920AF0A092910AE8B5BA0AF0A8AA9C0AF0
  A09C8E0AE589990AE58AA40AF0A0A1B30AE58BA10AE98DAE0AE499BA0AE7868C0AF0A48E8C0AF0A0B0A00AF0A4A6AC0A
  F0A183A40AE6A7910AF0A0B89D0AE791B90AE3BB9E0AE792990AE790940AE791960AE78E980AE4AE8E0AF0A4AABC0AF0
  A4828D0AE58F900AE396840AE7888F0AF0A483890AE596B40AF0A08D850AE5938D0AF0A0AF860AE59C9D0AE9899D0AE9
  9BB40AE98DA60AE59F9D0AE59E8D0AE59DBF0AE398BE0AE5A38B0AE5AA990AF0A8A9860AF0A19BBA0AF0A19DAF0AF0A1
  9C900AE5A8AC0AE5A6B80AE98A8F0AE5A9BE0AE5AB8F0AE5A8920AF0A5A5860AF0A1A7B30AF0A1A1A10AF0A48A950AE3
  9BB50AE6B4850AE791830AE5A8A10AF0A5BA830A"

/-- tests/test_data/whatwg/big5_whatwg_test_encode_out.txt, part 18 -/
noncomputable def encodeOut17 : List Nat := hex! "92400A92410A92420A92430A92450A92460A92470A92480A92490A924A0A924B0A924C0A924D0A924E0A924F0A92500A
  92510A92520A92530A92540A92550A92560A92570A92580A92590A925A0A925B0A925C0A925D0A925E0A925F0A92600A
  92610A92620A92630A92640A92650A92660A92670A92680A92690A926A0A926B0A926C0A926D0A926E0A926F0A92700A
  92710A92720A92730A92740A92750A92760A92770A92780A92790A927A0A927B0A927C0A927D0A927E0A92A10A92A20A
  92A30A92A40A92A50A92A60A92A70A92A80A92A90A92AA0A92AB0A92AC0A92AD0A92AE0A92AF0A92B00A92B10A92B20A
  92B30A92B40A92B50A92B60A92B70A92B80A92B90A92BA0A92BB0A92BC0A92BD0A92BE0A92BF0A92C00A92C10A92C20A
  92C30A92C40A92C50A92C60A92C70A92C80A92C90A92CA0A92CB0A92CC0A92CD0A92CE0A92CF0A92D00A92D10A92D20A
  92D30A92D40A92D50A92D60A92D70A92D80A92D90A92DA0A92DB0A92DC0A92DD0A92DE0A92DF0A92E00A92E10A92E20A
  92E30A92E40A92E50A92E60A92E70A92E80A92E90A92EA0A92EB0A92EC0A92ED0A92EE0A92EF0A92F00A92F10A92F20A
  92F30A92F40A92F50A92F60A92F70A92F80A92F90A92FA0A92FB0A92FC0A92FD0A92FE0A"

/-- tests/test_data/whatwg/big5_whatwg_test_decode_in.txt, part 19 -/
noncomputable def decodeIn18 : List Nat := hex! "93400A93410A93420A93430A93440A93450A93460A93470A93480A93490A934A0A934B0A934C0A934D0A934E0A934F0A
  93500A93510A93520A93530A93540A93550A93560A93570A93580A93590A935A0A935B0A935C0A935D0A935E0A935F0A
  93600A93610A93620A93630A93640A93650A93660A93670A93680A93690A936A0A936B0A936C0A936D0A936E0A936F0A
  93700A93710A93720A93730A93740A93750A93760A93770A93780A93790A937A0A937B0A937C0A937D0A937E0A93A10A
  93A20A93A30A93A40A93A50A93A60A93A70A93A80A93A90A93AA0A93AB0A93AC0A93AD0A93AE0A93AF0A93B00A93B10A
  93B20A93B30A93B40A93B50A93B60A93B70A93B80A93B90A93BA0A93BB0A93BC0A93BD0A93BE0A93BF0A93C00A93C10A
  93C20A93C30A93C40A93C50A93C60A93C70A93C80A93C90A93CA0A93CB0A93CC0A93CD0A93CE0A93CF0A93D00A93D10A
  93D20A93D30A93D40A93D50A93D60A93D70A93D80A93D90A93DA0A93DB0A93DC0A93DD0A93DE0A93DF0A93E00A93E10A
  93E20A93E30A93E40A93E50A93E60A93E70A93E80A93E90A93EA0A93EB0A93EC0A93ED0A93EE0A93EF0A93F00A93F10A
  93F20A93F30A93F40A93F50A93F60A93F70A93F80A93F90A93FA0A93FB0A93FC0A93FD0A93FE0A"

/-- tests/test_data/whatwg/big5_whatwg_test_decode_out.txt, part 19 -/
noncomputable def decodeOut18 : List Nat := hex! "E5AA810AF0A8AF970AF0A090930AE98FA00AE7928C0AF0A18C830AE784850AE4A5B20AE990880AF0A8A7BB0AE98EBD0A
  E39EA00AE5B09E0AE5B29E0AE5B99E0AE5B9880AF0A1A6960AF0A1A5BC0AF0A3ABAE0AE5BB8D0AE5AD8F0AF0A1A4830A
  F0A1A4840AE39C810AF0A1A2A00AE39B9D0AF0A19BBE0AE39B930AE884AA0AF0A8A9870AF0A1B6BA0AF0A391B20AF0A8
  A6A80AE5BC8C0AE5BC8E0AF0A1A4A70AF0A19EAB0AE5A9AB0AF0A19CBB0AE5AD840AE898940AF0A797BD0AE8A1A00AE6
  81BE0AF0A2A1A00AF0A298AB0AE5BF9B0AE3BAB80AF0A296AF0AF0A296BE0AF0A982880AF0A6BDB30AE687800AF0A080
  BE0AF0A081860AF0A2989B0AE686990AE686980AE681B50AF0A2B29B0AF0A2B4870AF0A49B940AF0A9858D0AE691B10A
  F0A499A50AF0A2ADAA0AE3A8A90AF0A2ACA20AF0A391900AF0A9A3AA0AF0A2B9B80AE68CB70AF0AA919B0AE692B60AE6
  8CB10AE68F910AF0A4A7A30AF0A2B5A70AE68AA40AF0A2B2A10AE690BB0AE695AB0AE6A5B20AE3AFB40AF0A3828E0AF0
  A38AAD0AF0A4A6890AF0A38AAB0AE5948D0AF0A38BA00AF0A1A3990AF0A990BF0AE69B8E0AF0A38A890AF0A386B30AE3
  ABA00AE486900AF0A596840AF0A8ACA20AF0A5968F0AF0A19BBC0AF0A5959B0AF0A590A50AE7A3AE0AF0A384830AF0A1
  A0AA0AF0A388B40AE391A40AF0A3888F0AF0A386820AF0A48B890AE69A8E0AF0A6B4A40AE699AB0AE4AE930AE698B00A
  F0A7A1B00AF0A1B7AB0AE699A30AF0A38B920AF0A38BA10AE6989E0AF0A5A1B20AE3A3910AF0A3A0BA0AF0A39EBC0AE3
  AE990AF0A39EA20AF0A38FBE0AE793900AE3AE960AE69E8F0AF0A498AA0AE6A2B60AE6A09E0AE3AF840AE6AABE0AE3A1
  A30AF0A39F950AF0A492870AE6A8B30AE6A9920AE6AB890AE6AC850AF0A1A4920AE694910AE6A2980AE6A98C0AE3AF97
  0AE6A9BA0AE6AD970AF0A3BF800AF0A3B29A0AE98EA00AE98BB20AF0A8AFAA0AF0A8AB8B0A"

/-- tests/test_data/whatwg/big5_whatwg_test_encode_in.txt, part 19 -/
noncomputable def encodeIn18 : List Nat := hex! "E5AA810AF0A8AF970AF0A090930AE98FA00AE7928C0AF0A18C830AE784850AE4A5B20AE990880AF0A8A7BB0AE98EBD0A
  E39EA00AE5B09E0AE5B29E0AE5B99E0AE5B9880AF0A1A6960AF0A1A5BC0AF0A3ABAE0AE5BB8D0AE5AD8F0AF0A1A4830A
  F0A1A4840AE39C810AF0A1A2A00AE39B9D0AF0A19BBE0AE39B930AE884AA0AF0A8A9870AF0A1B6BA0AF0A391B20AF0A8
  A6A80AE5BC8C0AE5BC8E0AF0A1A4A70AF0A19EAB0AE5A9AB0AF0A19CBB0AE5AD840AE898940AF0A797BD0AE8A1A00AE6
  81BE0AF0A2A1A00AF0A298AB0AE5BF9B0AE3BAB80AF0A296AF0AF0A296BE0AF0A982880AF0A6BDB30AE687800AF0A080
  BE0AF0A081860AF0A2989B0AE686990AE686980AE681B50AF0A2B29B0AF0A2B4870AF0A49B940AF0A9858D0AE691B10A
  F0A499A50AF0A2ADAA0AE3A8A90AF0A2ACA20AF0A391900AF0A9A3AA0AF0A2B9B80AE68CB70AF0AA919B0AE692B60AE6
  8CB10AE68F910AF0A4A7A30AF0A2B5A70AE68AA40AF0A2B2A10AE690BB0AE695AB0AE6A5B20AE3AFB40AF0A3828E0AF0
  A38AAD0AF0A4A6890AF0A38AAB0AE5948D0AF0A38BA00AF0A1A3990AF0A990BF0AE69B8E0AF0A38A890AF0A386B30AE3
  ABA00AE486900AF0A596840AF0A8ACA20AF0A5968F0AF0A19BBC0AF0A5959B0AF0A590A50AE7A3AE0AF0A384830AF0A1
  A0AA0AF0A388B40AE391A40AF0A3888F0AF0A386820AF0A48B890AE69A8E0AF0A6B4A40AE699AB0AE4AE930AE698B00A
  F0A7A1B00AF0A1B7AB0AE699A30AF0A38B920AF0A38BA10AE6989E0AF0A5A1B20AE3A3910AF0A3A0BA0AF0A39EBC0AE3
  AE990AF0A39EA20AF0A38FBE0AE793900AE3AE960AE69E8F0AF0A498AA0AE6A2B60AE6A09E0AE3AF840AE6AABE0AE3A1
  A30AF0A39F950AF0A492870AE6A8B30AE6A9920AE6AB890AE6AC850AF0A1A4920AE694910AE6A2980AE6A98C0AE3AF97
  0AE6A9BA0AE6AD970AF0A3BF800AF0A3B29A0AE98EA00AE98BB20AF0A8AFAA0AF0A8AB8B0A"

/-- tests/test_data/whatwg/big5_whatwg_test_encode_out.txt, part 19 -/
noncomputable def encodeOut18 : List Nat := hex! "93400A93410A93420A93430A93440A93450A93460A93470A93480A93490A934A0A934B0A934C0A934D0A934E0A934F0A
  93500A93510A93520A93530A93540A93550A93560A93570A93580A93590A935A0A935B0A935C0A935D0A935E0A935F0A
  93600A93610A93620A93630A93640A93650A93660A93670A93680A93690A936A0A936B0A936C0A936D0A936E0A936F0A
  93700A93710A93720A93730A93740A93750A93760A93770A93780A93790A937A0A937B0A937C0A937D0A937E0A93A10A
  93A20A93A30A93A40A93A50A93A60A93A70A93A80A93A90A93AA0A93AB0A93AC0A93AD0A93AE0A93AF0A93B00A93B10A
  93B20A93B30A93B40A93B50A93B60A93B70A93B80A93B90A93BA0A93BB0A93BC0A93BD0A93BE0A93BF0A93C00A93C10A
  93C20A93C30A93C40A93C50A93C60A93C70A93C80A93C90A93CA0A93CB0A93CC0A93CD0A93CE0A93CF0A93D00A93D10A
  93D20A93D30A93D40A93D50A93D60A93D70A93D80A93D90A93DA0A93DB0A93DC0A93DD0A93DE0A93DF0A93E00A93E10A
  93E20A93E30A93E40A93E50A93E60A93E70A93E80A93E90A93EA0A93EB0A93EC0A93ED0A93EE0A93EF0A93F00A93F10A
  93F20A93F30A93F40A93F50A93F60A93F70A93F80A93F90A93FA0A93FB0A93FC0A93FD0A93FE0A"

/-- tests/test_data/whatwg/big5_whatwg_test_decode_in.txt, part 20 -/
noncomputable def decodeIn19 : List Nat := hex! "94400A94410A94420A94430A94440A94450A94460A94470A94480A94490A944A0A944B0A944C0A944D0A944E0A944F0A
  94500A94510A94520A94530A94540A94550A94560A94570A94580A94590A945A0A945B0A945C0A945D0A945E0A945F0A
  94600A94610A94620A94630A94640A94650A94660A94670A94680A94690A946A0A946B0A946C0A946D0A946E0A946F0A
  94700A94710A94720A94730A94740A94750A94760A94770A94780A94790A947A0A947B0A947C0A947D0A947E0A94A10A
  94A20A94A30A94A40A94A50A94A60A94A70A94A80A94A90A94AA0A94AB0A94AC0A94AD0A94AE0A94AF0A94B00A94B10A
  94B20A94B30A94B40A94B50A94B60A94B70A94B80A94B90A94BA0A94BB0A94BC0A94BD0A94BE0A94BF0A94C00A94C10A
  94C20A94C30A94C40A94C50A94C60A94C70A94C80A94C90A94CA0A94CB0A94CC0A94CD0A94CE0A94CF0A94D00A94D10A
  94D20A94D30A94D40A94D50A94D60A94D70A94D80A94D90A94DA0A94DB0A94DC0A94DD0A94DE0A94DF0A94E00A94E10A
  94E20A94E30A94E40A94E50A94E60A94E70A94E80A94E90A94EA0A94EB0A94EC0A94ED0A94EE0A94EF0A94F00A94F10A
  94F20A94F30A94F40A94F50A94F60A94F70A94F80A94F90A94FA0A94FB0A94FC0A94FD0A94FE0A"

/-- tests/test_data/whatwg/big5_whatwg_test_decode_out.txt, part 20 -/
noncomputable def decodeOut19 : List Nat := hex! "E98A890AF0A8809E0AF0A8A79C0AE991A70AE6B6A50AE6BC8B0AF0A4A7AC0AE6B5A70AF0A3BDBF0AE3B68F0AE6B8840A
  F0A480BC0AE5A8BD0AE6B88A0AE5A1870AE6B4A40AE7A1820AE784BB0AF0A48C9A0AF0A489B60AE783B10AE789900AE7
  8A870AE78A940AF0A49E8F0AF0A49CA50AE585B90AF0A4AAA40AF0A097AB0AE791BA0AF0A3BBB80AF0A3999F0AF0A4A9
  8A0AF0A4A4970AF0A5BFA10AE3BC860AE3BAB10AF0A4AB9F0AF0A8B0A30AF0A3BCB50AE682A70AE3BBB30AE7938C0AE7
  90BC0AE98E870AE790B70AE4929F0AF0A6B7AA0AE495910AE796830AE3BDA30AF0A4B3990AF0A4B4860AE3BD980AE795
  950AE799B30AF0AA97860AE3AC990AE791A80AF0A8AB8C0AF0A4A6AB0AF0A4A68E0AE3ABBB0AE3B78D0AF0A4A98E0AE3
  BBBF0AF0A4A7850AF0A4A3B30AE987BA0AE59CB20AE98D820AF0A8ABA30AF0A1A1A40AE5839F0AF0A588A10AF0A587A7
  0AE79DB80AF0A388B20AE79C8E0AE79C8F0AE79DBB0AF0A49A970AF0A39E810AE3A99E0AF0A4A3B00AE790B80AE7929B
  0AE3BABF0AF0A4AABA0AF0A4AB870AE483880AF0A4AA960AF0A686AE0AE98C870AF0A596810AE7A09E0AE7A28D0AE7A2
  880AE7A3920AE78F900AE7A5990AF0A79D810AF0A59BA30AE4848E0AE7A69B0AE892960AE7A6A50AE6A8AD0AF0A3BBBA
  0AE7A8BA0AE7A7B40AE485AE0AF0A19BA60AE484B20AE988B50AE7A7B10AF0A0B58C0AF0A4A68C0AF0A08A990AF0A3B6
  BA0AF0A19DAE0AE396970AE595AB0AE395B00AE39AAA0AF0A087940AF0A0B08D0AE7ABA20AE5A9990AF0A29BB50AF0A5
  AAAF0AF0A5AA9C0AE5A88D0AF0A0899B0AE7A3B00AE5A8AA0AF0A5AF860AE7ABBE0AE487B90AE7B19D0AE7B1AD0AE488
  910AF0A5AEB30AF0A5BABC0AF0A5BAA60AE7B38D0AF0A4A7B90AF0A19EB00AE7B28E0AE7B1BC0AE7B2AE0AE6AAB20AE7
  B79C0AE7B8870AE7B7930AE7BD8E0AF0A689A10A"

/-- tests/test_data/whatwg/big5_whatwg_test_encode_in.txt, part 20 -/
noncomputable def encodeIn19 : List Nat := hex! "E98A890AF0A8809E0AF0A8A79C0AE991A70AE6B6A50AE6BC8B0AF0A4A7AC0AE6B5A70AF0A3BDBF0AE3B68F0AE6B8840A
  F0A480BC0AE5A8BD0AE6B88A0AE5A1870AE6B4A40AE7A1820AE784BB0AF0A48C9A0AF0A489B60AE783B10AE789900AE7
  8A870AE78A940AF0A49E8F0AF0A49CA50AE585B90AF0A4AAA40AF0A097AB0AE791BA0AF0A3BBB80AF0A3999F0AF0A4A9
  8A0AF0A4A4970AF0A5BFA10AE3BC860AE3BAB10AF0A4AB9F0AF0A8B0A30AF0A3BCB50AE682A70AE3BBB30AE7938C0AE7
  90BC0AE98E870AE790B70AE4929F0AF0A6B7AA0AE495910AE796830AE3BDA30AF0A4B3990AF0A4B4860AE3BD980AE795
  950AE799B30AF0AA97860AE3AC990AE791A80AF0A8AB8C0AF0A4A6AB0AF0A4A68E0AE3ABBB0AE3B78D0AF0A4A98E0AE3
  BBBF0AF0A4A7850AF0A4A3B30AE987BA0AE59CB20AE98D820AF0A8ABA30AF0A1A1A40AE5839F0AF0A588A10AF0A587A7
  0AE79DB80AF0A388B20AE79C8E0AE79C8F0AE79DBB0AF0A49A970AF0A39E810AE3A99E0AF0A4A3B00AE790B80AE7929B
  0AE3BABF0AF0A4AABA0AF0A4AB870AE483880AF0A4AA960AF0A686AE0AE98C870AF0A596810AE7A09E0AE7A28D0AE7A2
  880AE7A3920AE78F900AE7A5990AF0A79D810AF0A59BA30AE4848E0AE7A69B0AE892960AE7A6A50AE6A8AD0AF0A3BBBA
  0AE7A8BA0AE7A7B40AE485AE0AF0A19BA60AE484B20AE988B50AE7A7B10AF0A0B58C0AF0A4A68C0AF0A08A990AF0A3B6
  BA0AF0A19DAE0AE396970AE595AB0AE395B00AE39AAA0AF0A087940AF0A0B08D0AE7ABA20AE5A9990AF0A29BB50AF0A5
  AAAF0AF0A5AA9C0AE5A88D0AF0A0899B0AE7A3B00AE5A8AA0AF0A5AF860AE7ABBE0AE487B90AE7B19D0AE7B1AD0AE488
  910AF0A5AEB30AF0A5BABC0AF0A5BAA60AE7B38D0AF0A4A7B90AF0A19EB00AE7B28E0AE7B1BC0AE7B2AE0AE6AAB20AE7
  B79C0AE7B8870AE7B7930AE7BD8E0AF0A689A10A"

/-- tests/test_data/whatwg/big5_whatwg_test_encode_out.txt, part 20 -/
noncomputable def encodeOut19 : List Nat := hex! "94400A94410A94420A94430A94440A94450A94460A94470A94480A94490A944A0A944B0A944C0A944D0A944E0A944F0A
  94500A94510A94520A94530A94540A94550A94560A94570A94580A94590A945A0A945B0A945C0A945D0A945E0A945F0A
  94600A94610A94620A94630A94640A94650A94660A94670A94680A94690A946A0A946B0A946C0A946D0A946E0A946F0A
  94700A94710A94720A94730A94740A94750A94760A94770A94780A94790A947A0A947B0A947C0A947D0A947E0A94A10A
  94A20A94A30A94A40A94A50A94A60A94A70A94A80A94A90A94AA0A94AB0A94AC0A94AD0A94AE0A94AF0A94B00A94B10A
  94B20A94B30A94B40A94B50A94B60A94B70A94B80A94B90A94BA0A94BB0A94BC0A94BD0A94BE0A94BF0A94C00A94C10A
  94C20A94C30A94C40A94C50A94C60A94C70A94C80A94C90A94CA0A94CB0A94CC0A94CD0A94CE0A94CF0A94D00A94D10A
  94D20A94D30A94D40A94D50A94D60A94D70A94D80A94D90A94DA0A94DB0A94DC0A94DD0A94DE0A94DF0A94E00A94E10A
  94E20A94E30A94E40A94E50A94E60A94E70A94E80A94E90A94EA0A94EB0A94EC0A94ED0A94EE0A94EF0A94F00A94F10A
  94F20A94F30A94F40A94F50A94F60A94F70A94F80A94F90A94FA0A94FB0A94FC0A94FD0A94FE0A"

/-- tests/test_data/whatwg/big5_whatwg_test_decode_in.txt, part 21 -/
noncomputable def decodeIn20 : List Nat := hex! "95400A95410A95420A95430A95440A95450A95460A95470A95480A95490A954A0A954B0A954C0A954D0A954E0A954F0A
  95500A95510A95520A95530A95540A95550A95560A95570A95580A95590A955A0A955B0A955C0A955D0A955E0A955F0A
  95600A95610A95620A95630A95640A95650A95660A95670A95680A95690A956A0A956B0A956C0A956D0A956E0A956F0A
  95700A95710A95720A95730A95740A95750A95760A95770A95780A95790A957A0A957B0A957C0A957D0A957E0A95A10A
  95A20A95A30A95A40A95A50A95A60A95A70A95A80A95A90A95AA0A95AB0A95AC0A95AD0A95AE0A95AF0A95B00A95B10A
  95B20A95B30A95B40A95B50A95B60A95B70A95B80A95B90A95BA0A95BB0A95BC0A95BD0A95BE0A95BF0A95C00A95C10A
  95C20A95C30A95C40A95C50A95C60A95C70A95C80A95C90A95CA0A95CB0A95CC0A95CD0A95CE0A95CF0A95D00A95D10A
  95D20A95D30A95D40A95D50A95D60A95D70A95D80A95D90A95DA0A95DB0A95DC0A95DD0A95DE0A95DF0A95E00A95E10A
  95E20A95E30A95E40A95E50A95E60A95E70A95E80A95E90A95EA0A95EB0A95EC0A95ED0A95EE0A95EF0A95F00A95F10A
  95F20A95F30A95F40A95F50A95F60A95F70A95F80A95F90A95FA0A95FB0A95FC0A95FD0A95FE0A"

/-- tests/test_data/whatwg/big5_whatwg_test_decode_out.txt, part 21 -/
noncomputable def decodeOut20 : List Nat := hex! "F0A6859C0AF0A7AD880AE7B6970AF0A5BA820AE489AA0AF0A6ADB50AF0A0A4960AE69F960AF0A0818E0AF0A3978F0AE5
  9F840AF0A690920AF0A68FB80AF0A4A5A20AE7BF9D0AE7ACA70AF0A0A0AC0AF0A5ABA90AF0A5B5830AE7AC8C0AF0A5B8
  8E0AE9A7A60AE899850AE9A9A30AE6A89C0AF0A390BF0AE3A7A20AF0A4A7B70AF0A696AD0AE9A89F0AF0A696A00AE892
  800AF0A784A70AF0A6B3910AE493AA0AE884B70AE490820AE883860AE884890AE885820AF0A69EB40AE9A3830AF0A6A9
  820AE889A20AE889A50AF0A6A9910AE891930AF0A6B6A70AE898900AF0A7889B0AE5AA860AE485BF0AF0A1A1800AE5AC
  AB0AF0A1A2A10AE5ABA40AF0A1A3980AE89AA00AF0AFA6BC0AF0A3B68F0AE8A0AD0AF0A790A20AE5A8820AE8A1AE0AE4
  BD850AE8A2870AE8A2BF0AE8A3A60AE8A5A50AE8A58D0AF0A59A830AE8A5940AF0A79E850AF0A79E840AF0A8AFB50AF0
  A8AF990AF0A8AE9C0AF0A8A7B90AE3BAAD0AE892A30AE49BB50AE49B8F0AE39FB20AE8A8BD0AE8A89C0AF0A991880AE5
  BD8D0AE988AB0AF0A48A840AE697940AE784A90AE783840AF0A1A1850AE9B5AD0AE8B29F0AE8B3A90AF0A7B79C0AE5A6
  9A0AE79F830AE5A7B00AE48DAE0AE39B940AE8B8AA0AE8BAA70AF0A4B0890AE8BCB00AE8BD8A0AE48BB40AE6B1980AE6
  BEBB0AF0A28CA10AE4A29B0AE6BDB90AE6BA8B0AF0A19F9A0AE9AFA90AE39AB50AF0A4A4AF0AE982BB0AE982970AE595
  B10AE4A4860AE986BB0AE990840AF0A8A98B0AE481A20AF0A8ABBC0AE990A70AF0A8B09D0AF0A8B0BB0AE893A50AE8A8
  AB0AE996990AE996A70AE996970AE996960AF0A8B4B40AE791850AE3BB820AF0A4A3BF0AF0A4A9820AF0A48FAA0AE3BB
  A70AF0A388A50AE99A8F0AF0A8BBA70AF0A8B9A60AF0A8B9A50AE3BB8C0AF0A4A7AD0AF0A4A9B80AF0A3BFAE0AE79092
  0AE791AB0AE3BBBC0AE99D810AF0A982B00A"

/-- tests/test_data/whatwg/big5_whatwg_test_encode_in.txt, part 21 -/
noncomputable def encodeIn20 : List Nat := hex! "F0A6859C0AF0A7AD880AE7B6970AF0A5BA820AE489AA0AF0A6ADB50AF0A0A4960AE69F960AF0A0818E0AF0A3978F0AE5
  9F840AF0A690920AF0A68FB80AF0A4A5A20AE7BF9D0AE7ACA70AF0A0A0AC0AF0A5ABA90AF0A5B5830AE7AC8C0AF0A5B8
  8E0AE9A7A60AE899850AE9A9A30AE6A89C0AF0A390BF0AE3A7A20AF0A4A7B70AF0A696AD0AE9A89F0AF0A696A00AE892
  800AF0A784A70AF0A6B3910AE493AA0AE884B70AE490820AE883860AE884890AE885820AF0A69EB40AE9A3830AF0A6A9
  820AE889A20AE889A50AF0A6A9910AE891930AF0A6B6A70AE898900AF0A7889B0AE5AA860AE485BF0AF0A1A1800AE5AC
  AB0AF0A1A2A10AE5ABA40AF0A1A3980AE89AA00AF0AFA6BC0AF0A3B68F0AE8A0AD0AF0A790A20AE5A8820AE8A1AE0AE4
  BD850AE8A2870AE8A2BF0AE8A3A60AE8A5A50AE8A58D0AF0A59A830AE8A5940AF0A79E850AF0A79E840AF0A8AFB50AF0
  A8AF990AF0A8AE9C0AF0A8A7B90AE3BAAD0AE892A30AE49BB50AE49B8F0AE39FB20AE8A8BD0AE8A89C0AF0A991880AE5
  BD8D0AE988AB0AF0A48A840AE697940AE784A90AE783840AF0A1A1850AE9B5AD0AE8B29F0AE8B3A90AF0A7B79C0AE5A6
  9A0AE79F830AE5A7B00AE48DAE0AE39B940AE8B8AA0AE8BAA70AF0A4B0890AE8BCB00AE8BD8A0AE48BB40AE6B1980AE6
  BEBB0AF0A28CA10AE4A29B0AE6BDB90AE6BA8B0AF0A19F9A0AE9AFA90AE39AB50AF0A4A4AF0AE982BB0AE982970AE595
  B10AE4A4860AE986BB0AE990840AF0A8A98B0AE481A20AF0A8ABBC0AE990A70AF0A8B09D0AF0A8B0BB0AE893A50AE8A8
  AB0AE996990AE996A70AE996970AE996960AF0A8B4B40AE791850AE3BB820AF0A4A3BF0AF0A4A9820AF0A48FAA0AE3BB
  A70AF0A388A50AE99A8F0AF0A8BBA70AF0A8B9A60AF0A8B9A50AE3BB8C0AF0A4A7AD0AF0A4A9B80AF0A3BFAE0AE79092
  0AE791AB0AE3BBBC0AE99D810AF0A982B00A"

/-- tests/test_data/whatwg/big5_whatwg_test_encode_out.txt, part 21 -/
noncomputable def encodeOut20 : List Nat := hex! "95400A95410A95420A95430A95440A95450A95460A95470A95480A95490A954A0A954B0A954C0A954D0A954E0A954F0A
  95500A95510A95520A95530A95540A95550A95560A95570A95580A95590A955A0A955B0A955C0A955D0A955E0A955F0A
  95600A95610A95620A95630A95640A95650A95660A95670A95680A95690A956A0A956B0A956C0A956D0A956E0A956F0A
  95700A95710A95720A95730A95740A95750A95760A95770A95780A95790A957A0A957B0A957C0A957D0A957E0A95A10A
  95A20A95A30A95A40A95A50A95A60A95A70A95A80A95A90A95AA0A95AB0A95AC0A95AD0A95AE0A95AF0A95B00A95B10A
  95B20A95B30A95B40A95B50A95B60A95B70A95B80A95B90A95BA0A95BB0A95BC0A95BD0A95BE0A95BF0A95C00A95C10A
  95C20A95C30A95C40A95C50A95C60A95C70A95C80A95C90A95CA0A95CB0A95CC0A95CD0A95CE0A95CF0A95D00A95D10A
  95D20A95D30A95D40A95D50A95D60A95D70A95D80A95D90A95DA0A95DB0A95DC0A95DD0A95DE0A95DF0A95E00A95E10A
  95E20A95E30A95E40A95E50A95E60A95E70A95E80A95E90A95EA0A95EB0A95EC0A95ED0A95EE0A95EF0A95F00A95F10A
  95F20A95F30A95F40A95F50A95F60A95F70A95F80A95F90A95FA0A95FB0A95FC0A95FD0A95FE0A"

/-- tests/test_data/whatwg/big5_whatwg_test_decode_in.txt, part 22 -/
noncomputable def decodeIn21 : List Nat := hex! "96400A96410A96420A96430A96440A96450A96460A96470A96480A96490A964A0A964B0A964C0A964D0A964E0A964F0A
  96500A96510A96520A96530A96540A96550A96560A96570A96580A96590A965A0A965B0A965C0A965D0A965E0A965F0A
  96600A96610A96620A96630A96640A96650A96660A96670A96680A96690A966A0A966B0A966C0A966D0A966E0A966F0A
  96700A96710A96720A96730A96740A96750A96760A96770A96780A96790A967A0A967B0A967C0A967D0A967E0A96A10A
  96A20A96A30A96A40A96A50A96A60A96A70A96A80A96A90A96AA0A96AB0A96AC0A96AD0A96AE0A96AF0A96B00A96B10A
  96B20A96B30A96B40A96B50A96B60A96B70A96B80A96B90A96BA0A96BB0A96BC0A96BD0A96BE0A96BF0A96C00A96C10A
  96C20A96C30A96C40A96C50A96C60A96C70A96C80A96C90A96CA0A96CB0A96CC0A96CD0A96CE0A96CF0A96D00A96D10A
  96D20A96D30A96D40A96D50A96D60A96D70A96D80A96D90A96DA0A96DB0A96DC0A96DD0A96DE0A96DF0A96E00A96E10A
  96E20A96E30A96E40A96E50A96E60A96E70A96E80A96E90A96EA0A96EB0A96EC0A96ED0A96EE0A96EF0A96F00A96F10A
  96F20A96F30A96F40A96F50A96F60A96F70A96F80A96F90A96FA0A96FB0A96FC0A96FD0A96FE0A"

/-- tests/test_data/whatwg/big5_whatwg_test_decode_out.txt, part 22 -/
noncomputable def decodeOut21 : List Nat := hex! "E6A1870AE4A89D0AF0A982930AF0A59F9F0AE99D9D0AE98DA80AF0A8A6890AF0A8B0A60AF0A8ACAF0AF0A68EBE0AE98A
  BA0AE5AC910AE8ADA90AE4A4BC0AE78FB90AF0A4889B0AE99E9B0AE99DB10AE9A4B80AF0A0BCA60AE5B7810AF0A8AF85
  0AF0A4AAB20AE9A09F0AF0A9939A0AE98BB60AF0A997970AE987A50AE493800AF0A8AD900AF0A4A9A70AF0A8ADA40AE9
  A39C0AF0A8A9850AE3BC800AE988AA0AE4A4A50AE890940AE9A4BB0AE9A58D0AF0A7AC860AE3B7BD0AE9A69B0AE4ADAF
  0AE9A6AA0AE9A99C0AF0A8ADA50AF0A5A3880AE6AA8F0AE9A8A10AE5ABBE0AE9A8AF0AF0A9A3B10AE4AE900AF0A9A588
  0AE9A6BC0AE4AEBD0AE4AE970AE98DBD0AE5A1B20AF0A18C820AE5A0A20AF0A4A6B80AF0A193A80AE7A1840AF0A29C9F
  0AF0A3B6B80AE6A3850AE3B5BD0AE991980AE3A4A70AE685900AF0A29E810AF0A2A5AB0AE684870AE9B18F0AE9B1930A
  E9B1BB0AE9B0B50AE9B0900AE9ADBF0AE9AF8F0AF0A9B8AD0AE9AE9F0AF0AA87B50AF0AA83BE0AE9B4A10AE4B2AE0AF0
  A484840AE9B8980AE4B2B00AE9B48C0AF0AA86B40AF0AA83AD0AF0AA83B30AF0A9A4AF0AE9B6A50AE892BD0AF0A6B892
  0AF0A6BF9F0AF0A6AE820AE897BC0AE494B30AF0A6B6A40AF0A6BA840AF0A6B7B00AE890A00AE897AE0AF0A6B8800AF0
  A39F970AF0A681A40AE7A7A20AF0A3969C0AF0A399800AE4A4AD0AF0A4A79E0AE3B5A20AE98F9B0AE98ABE0AE98D880A
  F0A08ABF0AE7A2B90AE989B70AE9918D0AE4BFA40AE391800AE981A40AF0A5959D0AE7A0BD0AE7A1940AE7A2B60AE7A1
  8B0AF0A19D970AF0A387890AF0A4A5810AE39A9A0AE4BDB20AE6BF9A0AE6BF990AE7809E0AE7809E0AE590940AF0A486
  B50AE59EBB0AE5A3B30AE59E8A0AE9B4960AE59F970AE784B40AE392AF0AF0A486AC0AE787AB0AF0A6B1800AF0A4BE97
  0AE5ACA80AF0A19EB50AF0A8A9890A"

/-- tests/test_data/whatwg/big5_whatwg_test_encode_in.txt, part 22 -/
noncomputable def encodeIn21 : List Nat := hex! "E6A1870AE4A89D0AF0A982930AF0A59F9F0AE99D9D0AE98DA80AF0A8A6890AF0A8B0A60AF0A8ACAF0AF0A68EBE0AE98A
  BA0AE5AC910AE8ADA90AE4A4BC0AE78FB90AF0A4889B0AE99E9B0AE99DB10AE9A4B80AF0A0BCA60AE5B7810AF0A8AF85
  0AF0A4AAB20AE9A09F0AF0A9939A0AE98BB60AF0A997970AE987A50AE493800AF0A8AD900AF0A4A9A70AF0A8ADA40AE9
  A39C0AF0A8A9850AE3BC800AE988AA0AE4A4A50AE890940AE9A4BB0AE9A58D0AF0A7AC860AE3B7BD0AE9A69B0AE4ADAF
  0AE9A6AA0AE9A99C0AF0A8ADA50AF0A5A3880AE6AA8F0AE9A8A10AE5ABBE0AE9A8AF0AF0A9A3B10AE4AE900AF0A9A588
  0AE9A6BC0AE4AEBD0AE4AE970AE98DBD0AE5A1B20AF0A18C820AE5A0A20AF0A4A6B80AF0A193A80AE7A1840AF0A29C9F
  0AF0A3B6B80AE6A3850AE3B5BD0AE991980AE3A4A70AE685900AF0A29E810AF0A2A5AB0AE684870AE9B18F0AE9B1930A
  E9B1BB0AE9B0B50AE9B0900AE9ADBF0AE9AF8F0AF0A9B8AD0AE9AE9F0AF0AA87B50AF0AA83BE0AE9B4A10AE4B2AE0AF0
  A484840AE9B8980AE4B2B00AE9B48C0AF0AA86B40AF0AA83AD0AF0AA83B30AF0A9A4AF0AE9B6A50AE892BD0AF0A6B892
  0AF0A6BF9F0AF0A6AE820AE897BC0AE494B30AF0A6B6A40AF0A6BA840AF0A6B7B00AE890A00AE897AE0AF0A6B8800AF0
  A39F970AF0A681A40AE7A7A20AF0A3969C0AF0A399800AE4A4AD0AF0A4A79E0AE3B5A20AE98F9B0AE98ABE0AE98D880A
  F0A08ABF0AE7A2B90AE989B70AE9918D0AE4BFA40AE391800AE981A40AF0A5959D0AE7A0BD0AE7A1940AE7A2B60AE7A1
  8B0AF0A19D970AF0A387890AF0A4A5810AE39A9A0AE4BDB20AE6BF9A0AE6BF990AE7809E0AE590940AF0A486B50AE59E
  BB0AE5A3B30AE59E8A0AE9B4960AE59F970AE784B40AE392AF0AF0A486AC0AE787AB0AF0A6B1800AF0A4BE970AE5ACA8
  0AF0A19EB50AF0A8A9890A"

/-- tests/test_data/whatwg/big5_whatwg_test_encode_out.txt, part 22 -/
noncomputable def encodeOut21 : List Nat := hex! "96400A96410A96420A96430A96440A96450A96460A96470A96480A96490A964A0A964B0A964C0A964D0A964E0A964F0A
  96500A96510A96520A96530A96540A96550A96560A96570A96580A96590A965A0A965B0A965C0A965D0A965E0A965F0A
  96600A96610A96620A96630A96640A96650A96660A96670A96680A96690A966A0A966B0A966C0A966D0A966E0A966F0A
  96700A96710A96720A96730A96740A96750A96760A96770A96780A96790A967A0A967B0A967C0A967D0A967E0A96A10A
  96A20A96A30A96A40A96A50A96A60A96A70A96A80A96A90A96AA0A96AB0A96AC0A96AD0A96AE0A96AF0A96B00A96B10A
  96B20A96B30A96B40A96B50A96B60A96B70A96B80A96B90A96BA0A96BB0A96BC0A96BD0A96BE0A96BF0A96C00A96C10A
  96C20A96C30A96C40A96C50A96C60A96C70A96C80A96C90A96CA0A96CB0A96CC0A96CD0A96CE0A96CF0A96D00A96D10A
  96D20A96D30A96D40A96D50A96D60A96D70A96D80A96D90A96DA0A96DB0A96DC0A96DD0A96DE0A96DF0A96E00A96E10A
  96E20A96E30A96E40A96E50A96E60A96E70A96E80A96E90A96EA0A96EB0A96EC0A96ED0A96EF0A96F00A96F10A96F20A
  96F30A96F40A96F50A96F60A96F70A96F80A96F90A96FA0A96FB0A96FC0A96FD0A96FE0A"

/-- tests/test_data/whatwg/big5_whatwg_test_decode_in.txt, part 23 -/
noncomputable def decodeIn22 : List Nat := hex! "97400A97410A97420A97430A97440A97450A97460A97470A97480A97490A974A0A974B0A974C0A974D0A974E0A974F0A
  97500A97510A97520A97530A97540A97550A97560A97570A97580A97590A975A0A975B0A975C0A975D0A975E0A975F0A
  97600A97610A97620A97630A97640A97650A97660A97670A97680A97690A976A0A976B0A976C0A976D0A976E0A976F0A
  97700A97710A97720A97730A97740A97750A97760A97770A97780A97790A977A0A977B0A977C0A977D0A977E0A97A10A
  97A20A97A30A97A40A97A50A97A60A97A70A97A80A97A90A97AA0A97AB0A97AC0A97AD0A97AE0A97AF0A97B00A97B10A
  97B20A97B30A97B40A97B50A97B60A97B70A97B80A97B90A97BA0A97BB0A97BC0A97BD0A97BE0A97BF0A97C00A97C10A
  97C20A97C30A97C40A97C50A97C60A97C70A97C80A97C90A97CA0A97CB0A97CC0A97CD0A97CE0A97CF0A97D00A97D10A
  97D20A97D30A97D40A97D50A97D60A97D70A97D80A97D90A97DA0A97DB0A97DC0A97DD0A97DE0A97DF0A97E00A97E10A
  97E20A97E30A97E40A97E50A97E60A97E70A97E80A97E90A97EA0A97EB0A97EC0A97ED0A97EE0A97EF0A97F00A97F10A
  97F20A97F30A97F40A97F50A97F60A97F70A97F80A97F90A97FA0A97FB0A97FC0A97FD0A97FE0A"

/-- tests/test_data/whatwg/big5_whatwg_test_decode_out.txt, part 23 -/
noncomputable def decodeOut22 : List Nat := hex! "E6848C0AE5AB8E0AE5A88B0AE48ABC0AF0A492880AE39CAC0AE4ADBB0AF0A8A7BC0AE98EBB0AE98EB80AF0A1A3960AF0
  A0BC9D0AE891B20AF0A6B3800AF0A190930AF0A48BBA0AF0A2B0A60AF0A48F810AE5A6940AF0A3B6B70AF0A69D810AE7
  B6A80AF0A6859B0AF0A682A40AF0A4A6B90AF0A4A68B0AF0A8A7BA0AE98BA50AE78FA20AE3BBA90AE792B40AF0A8ADA3
  0AF0A1A29F0AE3BBA10AF0A4AAB30AE6AB980AE78FB30AE78FBB0AE3BB960AF0A4A8BE0AF0A4AA940AF0A19F990AF0A4
  A9A60AF0A08EA70AF0A190A40AF0A4A7A50AE791880AF0A4A4960AE782A50AF0A4A5B60AE98A840AE78FA60AE98D9F0A
  F0A093BE0AE98CB10AF0A8AB8E0AF0A8A8960AE98E860AF0A8AFA70AF0A597950AE4A4B50AF0A8AA820AE785AB0AF0A4
  A5830AF0A0B3BF0AE59AA40AF0A0989A0AF0A0AFAB0AF0A0B2B80AE594820AE7A7840AF0A19FBA0AE7B7BE0AF0A19B82
  0AF0A4A9900AF0A1A1920AE494AE0AE990810AE39C8A0AF0A8AB800AF0A4A6AD0AE5A6B00AF0A1A2BF0AF0A1A2830AF0
  A792840AE5AAA10AE39BA20AF0A3B59B0AE39AB00AE9899F0AE5A9B90AF0A8AA810AF0A1A1A20AE98DB40AE3B38D0AF0
  A0AAB40AE4AA960AE3A68A0AE583B40AE3B5A90AE3B58C0AF0A18E9C0AE785B50AE48BBB0AF0A888980AE6B88F0AF0A9
  83A40AE493AB0AE6B5970AF0A7B98F0AE781A70AE6B2AF0AE3B3960AF0A3BFAD0AF0A3B8AD0AE6B8820AE6BC8C0AE3B5
  AF0AF0A08FB50AE795910AE39ABC0AE393880AE49A800AE3BB9A0AE4A1B10AE5A7840AE989AE0AE4A4BE0AE8BD810AF0
  A8B09C0AF0A6AF800AE5A0920AE59F880AE39B960AF0A191920AE783BE0AF0A48DA20AF0A4A9B10AF0A2BFA30AF0A18A
  B00AF0A28EBD0AE6A2B90AE6A5A70AF0A18E980AF0A393A50AF0A7AFB40AF0A39B9F0AF0A8AA830AF0A39F960AF0A38F
  BA0AF0A4B29F0AE6A89A0AF0A39AAD0AF0A6B2B70AE890BE0AE4939F0AE4938E0A"

/-- tests/test_data/whatwg/big5_whatwg_test_encode_in.txt, part 23 -/
noncomputable def encodeIn22 : List Nat := hex! "E6848C0AE5AB8E0AE5A88B0AE48ABC0AF0A492880AE39CAC0AE4ADBB0AF0A8A7BC0AE98EBB0AE98EB80AF0A1A3960AF0
  A0BC9D0AE891B20AF0A6B3800AF0A190930AF0A48BBA0AF0A2B0A60AF0A48F810AE5A6940AF0A3B6B70AF0A69D810AE7
  B6A80AF0A6859B0AF0A682A40AF0A4A6B90AF0A4A68B0AF0A8A7BA0AE98BA50AE78FA20AE3BBA90AE792B40AF0A8ADA3
  0AF0A1A29F0AE3BBA10AF0A4AAB30AE6AB980AE78FB30AE78FBB0AE3BB960AF0A4A8BE0AF0A4AA940AF0A19F990AF0A4
  A9A60AF0A08EA70AF0A190A40AF0A4A7A50AE791880AF0A4A4960AE782A50AF0A4A5B60AE98A840AE78FA60AE98D9F0A
  F0A093BE0AE98CB10AF0A8AB8E0AF0A8A8960AE98E860AF0A8AFA70AF0A597950AE4A4B50AF0A8AA820AE785AB0AF0A4
  A5830AF0A0B3BF0AE59AA40AF0A0989A0AF0A0AFAB0AF0A0B2B80AE594820AE7A7840AF0A19FBA0AE7B7BE0AF0A19B82
  0AF0A4A9900AF0A1A1920AE494AE0AE990810AE39C8A0AF0A8AB800AF0A4A6AD0AE5A6B00AF0A1A2BF0AF0A1A2830AF0
  A792840AE5AAA10AE39BA20AF0A3B59B0AE39AB00AE9899F0AE5A9B90AF0A8AA810AF0A1A1A20AE98DB40AE3B38D0AF0
  A0AAB40AE4AA960AE3A68A0AE583B40AE3B5A90AE3B58C0AF0A18E9C0AE785B50AE48BBB0AF0A888980AE6B88F0AF0A9
  83A40AE493AB0AE6B5970AF0A7B98F0AE781A70AE6B2AF0AE3B3960AF0A3BFAD0AF0A3B8AD0AE6B8820AE6BC8C0AE3B5
  AF0AF0A08FB50AE795910AE39ABC0AE393880AE49A800AE3BB9A0AE4A1B10AE5A7840AE989AE0AE4A4BE0AE8BD810AF0
  A8B09C0AF0A6AF800AE5A0920AE59F880AE39B960AF0A191920AE783BE0AF0A48DA20AF0A4A9B10AF0A2BFA30AF0A18A
  B00AF0A28EBD0AE6A2B90AE6A5A70AF0A18E980AF0A393A50AF0A7AFB40AF0A39B9F0AF0A8AA830AF0A39F960AF0A38F
  BA0AF0A4B29F0AE6A89A0AF0A39AAD0AF0A6B2B70AE890BE0AE4939F0AE4938E0A"

/-- tests/test_data/whatwg/big5_whatwg_test_encode_out.txt, part 23 -/
noncomputable def encodeOut22 : List Nat := hex! "97400A97410A97420A97430A97440A97450A97460A97470A97480A97490A974A0A974B0A974C0A974D0A974E0A974F0A
  97500A97510A97520A97530A97540A97550A97560A97570A97580A97590A975A0A975B0A975C0A975D0A975E0A975F0A
  97600A97610A97620A97630A97640A97650A97660A97670A97680A97690A976A0A976B0A976C0A976D0A976E0A976F0A
  97700A97710A97720A97730A97740A97750A97760A97770A97780A97790A977A0A977B0A977C0A977D0A977E0A97A10A
  97A20A97A30A97A40A97A50A97A60A97A70A97A80A97A90A97AA0A97AB0A97AC0A97AD0A97AE0A97AF0A97B00A97B10A
  97B20A97B30A97B40A97B50A97B60A97B70A97B80A97B90A97BA0A97BB0A97BC0A97BD0A97BE0A97BF0A97C00A97C10A
  97C20A97C30A97C40A97C50A97C60A97C70A97C80A97C90A97CA0A97CB0A97CC0A97CD0A97CE0A97CF0A97D00A97D10A
  97D20A97D30A97D40A97D50A97D60A97D70A97D80A97D90A97DA0A97DB0A97DC0A97DD0A97DE0A97DF0A97E00A97E10A
  97E20A97E30A97E40A97E50A97E60A97E70A97E80A97E90A97EA0A97EB0A97EC0A97ED0A97EE0A97EF0A97F00A97F10A
  97F20A97F30A97F40A97F50A97F60A97F70A97F80A97F90A97FA0A97FB0A97FC0A97FD0A97FE0A"

/-- tests/test_data/whatwg/big5_whatwg_test_decode_in.txt, part 24 -/
noncomputable def decodeIn23 : List Nat := hex! "98400A98410A98420A98430A98440A98450A98460A98470A98480A98490A984A0A984B0A984C0A984D0A984E0A984F0A
  98500A98510A98520A98530A98540A98550A98560A98570A98580A98590A985A0A985B0A985C0A985D0A985E0A985F0A
  98600A98610A98620A98630A98640A98650A98660A98670A98680A98690A986A0A986B0A986C0A986D0A986E0A986F0A
  98700A98710A98720A98730A98740A98750A98760A98770A98780A98790A987A0A987B0A987C0A987D0A987E0A98A10A
  98A20A98A30A98A40A98A50A98A60A98A70A98A80A98A90A98AA0A98AB0A98AC0A98AD0A98AE0A98AF0A98B00A98B10A
  98B20A98B30A98B40A98B50A98B60A98B70A98B80A98B90A98BA0A98BB0A98BC0A98BD0A98BE0A98BF0A98C00A98C10A
  98C20A98C30A98C40A98C50A98C60A98C70A98C80A98C90A98CA0A98CB0A98CC0A98CD0A98CE0A98CF0A98D00A98D10A
  98D20A98D30A98D40A98D50A98D60A98D70A98D80A98D90A98DA0A98DB0A98DC0A98DD0A98DE0A98DF0A98E00A98E10A
  98E20A98E30A98E40A98E50A98E60A98E70A98E80A98E90A98EA0A98EB0A98EC0A98ED0A98EE0A98EF0A98F00A98F10A
  98F20A98F30A98F40A98F50A98F60A98F70A98F80A98F90A98FA0A98FB0A98FC0A98FD0A98FE0A"

/-- tests/test_data/whatwg/big5_whatwg_test_decode_out.txt, part 24 -/
noncomputable def decodeOut23 : List Nat := hex! "F0A6B4A60AF0A6B5910AF0A6B2820AF0A6BF9E0AE6BC970AF0A784890AE88CBD0AF0A19CBA0AE88FAD0AF0A6B2800AF0
  A781930AF0A19F9B0AE5A6890AE5AA820AF0A19EB30AE5A9A10AE5A9B10AF0A1A4850AF0A487BC0AE39CAD0AE5A7AF0A
  F0A19CBC0AE39B870AE7868E0AE98E900AE69A9A0AF0A48AA50AE5A9AE0AE5A8AB0AF0A48A930AE6A8AB0AF0A3BBB90A
  F0A79CB60AF0A4919B0AF0A48B8A0AE7849D0AF0A489990AF0A8A7A10AE4BEB00AF0A6B4A80AE5B3820AF0A4938E0AF0
  A7B98D0AF0A48EBD0AE6A88C0AF0A489960AF0A18C840AE782A60AE784B30AF0A48FA90AE3B6A50AE6B39F0AF0AFA0A5
  0AF0A4A98F0AE7B9A50AE5A7AB0AE5B4AF0AE3B7B30AE5BD9C0AF0A4A99D0AF0A19F9F0AE7B6A40AE890A60AE592850A
  F0A3ABBA0AF0A38C800AF0A088940AE59DBE0AF0A0A3950AF0A098990AE3BFA50AF0A1BE9E0AF0AA8AB60AE780830AF0
  A9859B0AE5B5B00AE78E8F0AE7B3930AF0A8A9990AF0A990A00AE4BF880AE7BFA70AE78B8D0AE78C900AF0A7ABB40AE7
  8CB80AE78CB90AF0A59BB60AE78D810AE78D880AE3BAA90AF0A7AC980AE981AC0AE787B50AF0A4A3B20AE78FA10AE887
  B60AE3BB8A0AE79C8C0AE3BB910AE6B2A20AE59BBD0AE790990AE7909E0AE7909F0AE3BBA20AE3BBB00AE3BBB40AE3BB
  BA0AE793930AE3BC8E0AE3BD930AE795820AE795AD0AE795B20AE7968D0AE3BDBC0AE797880AE7979C0AE3BF800AE799
  8D0AE3BF970AE799B40AE3BF9C0AE799BA0AF0A4BD9C0AE786880AE598A30AE8A6800AE5A1A90AE4809D0AE79D830AE4
  80B90AE69DA10AE481850AE3979B0AE79E980AE481AA0AE481AF0AE5B19E0AE79EBE0AE79F8B0AE5A3B20AE7A0980AE7
  82B90AE7A09C0AE482A80AE7A0B90AE7A1870AE7A1910AE7A1A60AE891880AF0A594B50AE7A4B30AE6A0830AE7A4B20A
  E484830A"

/-- tests/test_data/whatwg/big5_whatwg_test_encode_in.txt, part 24 -/
noncomputable def encodeIn23 : List Nat := hex! "F0A6B4A60AF0A6B5910AF0A6B2820AF0A6BF9E0AE6BC970AF0A784890AE88CBD0AF0A19CBA0AE88FAD0AF0A6B2800AF0
  A781930AF0A19F9B0AE5A6890AE5AA820AF0A19EB30AE5A9A10AE5A9B10AF0A1A4850AF0A487BC0AE39CAD0AE5A7AF0A
  F0A19CBC0AE39B870AE7868E0AE98E900AE69A9A0AF0A48AA50AE5A9AE0AE5A8AB0AF0A48A930AE6A8AB0AF0A3BBB90A
  F0A79CB60AF0A4919B0AF0A48B8A0AE7849D0AF0A489990AF0A8A7A10AE4BEB00AF0A6B4A80AE5B3820AF0A4938E0AF0
  A7B98D0AF0A48EBD0AE6A88C0AF0A489960AF0A18C840AE782A60AE784B30AF0A48FA90AE3B6A50AE6B39F0AF0AFA0A5
  0AF0A4A98F0AE7B9A50AE5A7AB0AE5B4AF0AE3B7B30AE5BD9C0AF0A4A99D0AF0A19F9F0AE7B6A40AE890A60AE592850A
  F0A3ABBA0AF0A38C800AF0A088940AE59DBE0AF0A0A3950AF0A098990AE3BFA50AF0A1BE9E0AF0AA8AB60AE780830AF0
  A9859B0AE5B5B00AE78E8F0AE7B3930AF0A8A9990AF0A990A00AE4BF880AE7BFA70AE78B8D0AE78C900AF0A7ABB40AE7
  8CB80AE78CB90AF0A59BB60AE78D810AE78D880AE3BAA90AF0A7AC980AE981AC0AE787B50AF0A4A3B20AE78FA10AE887
  B60AE3BB8A0AE79C8C0AE3BB910AE6B2A20AE59BBD0AE790990AE7909E0AE7909F0AE3BBA20AE3BBB00AE3BBB40AE3BB
  BA0AE793930AE3BC8E0AE3BD930AE795820AE795AD0AE795B20AE7968D0AE3BDBC0AE797880AE7979C0AE3BF800AE799
  8D0AE3BF970AE799B40AE3BF9C0AE799BA0AF0A4BD9C0AE786880AE598A30AE8A6800AE5A1A90AE4809D0AE79D830AE4
  80B90AE69DA10AE481850AE3979B0AE79E980AE481AA0AE481AF0AE5B19E0AE79EBE0AE79F8B0AE5A3B20AE7A0980AE7
  82B90AE7A09C0AE482A80AE7A0B90AE7A1870AE7A1910AE7A1A60AE891880AF0A594B50AE7A4B30AE6A0830AE7A4B20A
  E484830A"

/-- tests/test_data/whatwg/big5_whatwg_test_encode_out.txt, part 24 -/
noncomputable def encodeOut23 : List Nat := hex! "98400A98410A98420A98430A98440A98450A98460A98470A98480A98490A984A0A984B0A984C0A984D0A984E0A984F0A
  98500A98510A98520A98530A98540A98550A98560A98570A98580A98590A985A0A985B0A985C0A985D0A985E0A985F0A
  98600A98610A98620A98630A98640A98650A98660A98670A98680A98690A986A0A986B0A986C0A986D0A986E0A986F0A
  98700A98710A98720A98730A98740A98750A98760A98770A98780A98790A987A0A987B0A987C0A987D0A987E0A98A10A
  98A20A98A30A98A40A98A50A98A60A98A70A98A80A98A90A98AA0A98AB0A98AC0A98AD0A98AE0A98AF0A98B00A98B10A
  98B20A98B30A98B40A98B50A98B60A98B70A98B80A98B90A98BA0A98BB0A98BC0A98BD0A98BE0A98BF0A98C00A98C10A
  98C20A98C30A98C40A98C50A98C60A98C70A98C80A98C90A98CA0A98CB0A98CC0A98CD0A98CE0A98CF0A98D00A98D10A
  98D20A98D30A98D40A98D50A98D60A98D70A98D80A98D90A98DA0A98DB0A98DC0A98DD0A98DE0A98DF0A98E00A98E10A
  98E20A98E30A98E40A98E50A98E60A98E70A98E80A98E90A98EA0A98EB0A98EC0A98ED0A98EE0A98EF0A98F00A98F10A
  98F20A98F30A98F40A98F50A98F60A98F70A98F80A98F90A98FA0A98FB0A98FC0A98FD0A98FE0A"

/-- tests/test_data/whatwg/big5_whatwg_test_decode_in.txt, part 25 -/
noncomputable def decodeIn24 : List Nat := hex! "99400A99410A99420A99430A99440A99450A99460A99470A99480A99490A994A0A994B0A994C0A994D0A994E0A994F0A
  99500A99510A99520A99530A99540A99550A99560A99570A99580A99590A995A0A995B0A995C0A995D0A995E0A995F0A
  99600A99610A99620A99630A99640A99650A99660A99670A99680A99690A996A0A996B0A996C0A996D0A996E0A996F0A
  99700A99710A99720A99730A99740A99750A99760A99770A99780A99790A997A0A997B0A997C0A997D0A997E0A99A10A
  99A20A99A30A99A40A99A50A99A60A99A70A99A80A99A90A99AA0A99AB0A99AC0A99AD0A99AE0A99AF0A99B00A99B10A
  99B20A99B30A99B40A99B50A99B60A99B70A99B80A99B90A99BA0A99BB0A99BC0A99BD0A99BE0A99BF0A99C00A99C10A
  99C20A99C30A99C40A99C50A99C60A99C70A99C80A99C90A99CA0A99CB0A99CC0A99CD0A99CE0A99CF0A99D00A99D10A
  99D20A99D30A99D40A99D50A99D60A99D70A99D80A99D90A99DA0A99DB0A99DC0A99DD0A99DE0A99DF0A99E00A99E10A
  99E20A99E30A99E40A99E50A99E60A99E70A99E80A99E90A99EA0A99EB0A99EC0A99ED0A99EE0A99EF0A99F00A99F10A
  99F20A99F30A99F40A99F50A99F60A99F70A99F80A99F90A99FA0A99FB0A99FC0A99FD0A99FE0A"

/-- tests/test_data/whatwg/big5_whatwg_test_decode_out.txt, part 25 -/
noncomputable def decodeOut24 : List Nat := hex! "E484890AE7A6910AE7A6990AE8BEBB0AE7A8860AE8BEBC0AE485A70AE7AA910AE486B20AE7AABC0AE889B90AE487840A
  E7AB8F0AE7AB9B0AE4878F0AE4B8A10AE7ADA20AE7ADAC0AE7ADBB0AE7B0920AE7B09B0AE489A00AE489BA0AE7B1BB0A
  E7B29C0AE48A8C0AE7B2B80AE48A940AE7B3AD0AE8BE930AE783800AF0A0B38F0AE7B78F0AE7B7940AE7B7900AE7B7BD
  0AE7BEAE0AE7BEB40AE78A9F0AE48E970AE880A00AE880A50AE7ACB90AE880AE0AE880B10AE881940AE3B78C0AE59EB4
  0AE782A00AE882B70AE883A90AE48FAD0AE8848C0AE78CAA0AE8848E0AE884920AE795A00AE884940AE490810AE3ACB9
  0AE885960AE885990AE8859A0AE490930AE5A0BA0AE885BC0AE886840AE490A50AE886930AE490AD0AE886A50AE59FAF
  0AE887810AE887A40AE889940AE4928F0AE88AA60AE889B60AE88B8A0AE88B980AE88BBF0AE492B00AE88D970AE999A9
  0AE6A68A0AE890850AE783B50AE891A40AE683A30AE892880AE494840AE892BE0AE893A10AE893B80AE894900AE894B8
  0AE895920AE494BB0AE895AF0AE895B00AE897A00AE495B70AE899B20AE89A920AE89AB20AE89BAF0AE999850AE89E8B
  0AE498860AE498970AE8A2AE0AE8A3BF0AE8A4A40AE8A5870AE8A6910AF0A7A5A70AE8A8A90AE8A8B80AE8AA940AE8AA
  B40AE8B1910AE8B3940AE8B3B20AE8B49C0AE49E980AE5A19F0AE8B7830AE49FAD0AE4BBAE0AE8B8BA0AE597980AE59D
  940AE8B9B10AE597B50AE8BAB00AE4A0B70AE8BB8E0AE8BBA20AE8BBA40AE8BBAD0AE8BBB20AE8BEB70AE8BF810AE8BF
  8A0AE8BF8C0AE980B30AE9A7840AE4A2AD0AE9A3A00AE988930AE4A49E0AE988A80AE989980AE989AB0AE98AB10AE98A
  AE0AE98ABF0A"

/-- tests/test_data/whatwg/big5_whatwg_test_encode_in.txt, part 25 -/
noncomputable def encodeIn24 : List Nat := hex! "E484890AE7A6910AE7A6990AE8BEBB0AE7A8860AE8BEBC0AE485A70AE7AA910AE486B20AE7AABC0AE889B90AE487840A
  E7AB8F0AE7AB9B0AE4878F0AE4B8A10AE7ADA20AE7ADAC0AE7ADBB0AE7B0920AE7B09B0AE489A00AE489BA0AE7B1BB0A
  E7B29C0AE48A8C0AE7B2B80AE48A940AE7B3AD0AE8BE930AE783800AF0A0B38F0AE7B78F0AE7B7940AE7B7900AE7B7BD
  0AE7BEAE0AE7BEB40AE78A9F0AE48E970AE880A00AE880A50AE7ACB90AE880AE0AE880B10AE881940AE3B78C0AE59EB4
  0AE782A00AE882B70AE883A90AE48FAD0AE8848C0AE78CAA0AE8848E0AE884920AE795A00AE884940AE490810AE3ACB9
  0AE885960AE885990AE8859A0AE490930AE5A0BA0AE885BC0AE886840AE490A50AE886930AE490AD0AE886A50AE59FAF
  0AE887810AE887A40AE889940AE4928F0AE88AA60AE889B60AE88B8A0AE88B980AE88BBF0AE492B00AE88D970AE999A9
  0AE6A68A0AE890850AE783B50AE891A40AE683A30AE892880AE494840AE892BE0AE893A10AE893B80AE894900AE894B8
  0AE895920AE494BB0AE895AF0AE895B00AE897A00AE495B70AE899B20AE89A920AE89AB20AE89BAF0AE999850AE89E8B
  0AE498860AE498970AE8A2AE0AE8A3BF0AE8A4A40AE8A5870AE8A6910AF0A7A5A70AE8A8A90AE8A8B80AE8AA940AE8AA
  B40AE8B1910AE8B3940AE8B3B20AE8B49C0AE49E980AE5A19F0AE8B7830AE49FAD0AE4BBAE0AE8B8BA0AE597980AE59D
  940AE8B9B10AE597B50AE8BAB00AE4A0B70AE8BB8E0AE8BBA20AE8BBA40AE8BBAD0AE8BBB20AE8BEB70AE8BF810AE8BF
  8A0AE8BF8C0AE980B30AE9A7840AE4A2AD0AE9A3A00AE988930AE4A49E0AE988A80AE989980AE989AB0AE98AB10AE98A
  AE0AE98ABF0A"

/-- tests/test_data/whatwg/big5_whatwg_test_encode_out.txt, part 25 -/
noncomputable def encodeOut24 : List Nat := hex! "99400A99410A99420A99430A99440A99450A99460A99470A99480A99490A994A0A994B0A994C0A994D0A994E0A994F0A
  99500A99510A99520A99530A99540A99550A99560A99570A99580A99590A995A0A995B0A995C0A995D0A995E0A995F0A
  99600A99610A99620A99630A99640A99650A99660A99670A99680A99690A996A0A996B0A996C0A996D0A996E0A996F0A
  99700A99710A99720A99730A99740A99750A99760A99770A99780A99790A997A0A997B0A997C0A997D0A997E0A99A10A
  99A20A99A30A99A40A99A50A99A60A99A70A99A80A99A90A99AA0A99AB0A99AC0A99AD0A99AE0A99AF0A99B00A99B10A
  99B20A99B30A99B40A99B50A99B60A99B70A99B80A99B90A99BA0A99BB0A99BC0A99BD0A99BE0A99BF0A99C00A99C10A
  99C20A99C30A99C40A99C50A99C60A99C70A99C80A99C90A99CA0A99CB0A99CC0A99CD0A99CE0A99CF0A99D00A99D10A
  99D20A99D30A99D40A99D50A99D60A99D70A99D80A99D90A99DA0A99DB0A99DC0A99DD0A99DE0A99DF0A99E00A99E10A
  99E20A99E30A99E40A99E50A99E60A99E70A99E80A99E90A99EA0A99EB0A99EC0A99ED0A99EE0A99EF0A99F00A99F10A
  99F20A99F30A99F40A99F50A99F60A99F70A99F80A99F90A99FA0A99FB0A99FC0A99FD0A99FE0A"

/-- tests/test_data/whatwg/big5_whatwg_test_decode_in.txt, part 26 -/
noncomputable def decodeIn25 : List Nat := hex! "9A400A9A410A9A420A9A430A9A440A9A450A9A460A9A470A9A480A9A490A9A4A0A9A4B0A9A4C0A9A4D0A9A4E0A9A4F0A
  9A500A9A510A9A520A9A530A9A540A9A550A9A560A9A570A9A580A9A590A9A5A0A9A5B0A9A5C0A9A5D0A9A5E0A9A5F0A
  9A600A9A610A9A620A9A630A9A640A9A650A9A660A9A670A9A680A9A690A9A6A0A9A6B0A9A6C0A9A6D0A9A6E0A9A6F0A
  9A700A9A710A9A720A9A730A9A740A9A750A9A760A9A770A9A780A9A790A9A7A0A9A7B0A9A7C0A9A7D0A9A7E0A9AA10A
  9AA20A9AA30A9AA40A9AA50A9AA60A9AA70A9AA80A9AA90A9AAA0A9AAB0A9AAC0A9AAD0A9AAE0A9AAF0A9AB00A9AB10A
  9AB20A9AB30A9AB40A9AB50A9AB60A9AB70A9AB80A9AB90A9ABA0A9ABB0A9ABC0A9ABD0A9ABE0A9ABF0A9AC00A9AC10A
  9AC20A9AC30A9AC40A9AC50A9AC60A9AC70A9AC80A9AC90A9ACA0A9ACB0A9ACC0A9ACD0A9ACE0A9ACF0A9AD00A9AD10A
  9AD20A9AD30A9AD40A9AD50A9AD60A9AD70A9AD80A9AD90A9ADA0A9ADB0A9ADC0A9ADD0A9ADE0A9ADF0A9AE00A9AE10A
  9AE20A9AE30A9AE40A9AE50A9AE60A9AE70A9AE80A9AE90A9AEA0A9AEB0A9AEC0A9AED0A9AEE0A9AEF0A9AF00A9AF10A
  9AF20A9AF30A9AF40A9AF50A9AF60A9AF70A9AF80A9AF90A9AFA0A9AFB0A9AFC0A9AFD0A9AFE0A"

/-- tests/test_data/whatwg/big5_whatwg_test_decode_out.txt, part 26 -/
noncomputable def decodeOut25 : List Nat := hex! "E98BA30AE98BAB0AE98BB30AE98BB40AE98BBD0AE98D830AE98E840AE98EAD0AE4A5850AE4A5910AE9BABF0AE990970A
  E58C810AE9909D0AE990AD0AE990BE0AE4A5AA0AE991940AE991B90AE994AD0AE996A20AE4A6A70AE997B40AE998B30A
  E4A7A50AE69EA00AE4A8A40AE99D800AE4A8B50AE99EB20AE99F820AE599940AE4ABA40AE683A80AE9A2B90AE4AC990A
  E9A3B10AE5A1840AE9A48E0AE9A4990AE586B40AE9A49C0AE9A4B70AE9A5820AE9A59D0AE9A5A20AE4ADB00AE9A7850A
  E4AE9D0AE9A8BC0AE9AC8F0AE7AA830AE9ADA90AE9AE810AE9AF9D0AE9AFB10AE9AFB40AE4B1AD0AE9B0A00AE39DAF0A
  F0A1AF820AE9B5890AE9B0BA0AE9BBBE0AE599900AE9B6930AE9B6BD0AE9B7800AE9B7BC0AE993B60AE8BEB60AE9B9BB
  0AE9BAAC0AE9BAB10AE9BABD0AE9BB860AE9939C0AE9BBA20AE9BBB10AE9BBB80AE7AB880AE9BD840AF0A082940AF0A0
  8AB70AF0A08EA00AE6A49A0AE993830AE5A6AC0AF0A093970AE5A1800AE993810AE39EB90AF0A097950AF0A098950AF0
  A099B60AF0A19ABA0AE59D970AE785B30AF0A0AB820AF0A0AB8D0AF0A0AEBF0AE591AA0AF0AFA0BB0AF0A0AF8B0AE592
  9E0AF0A0AFBB0AF0A0B0BB0AF0A0B1930AF0A0B1A50AF0A0B1BC0AE683A70AF0A0B28D0AE599BA0AF0A0B2B50AF0A0B3
  9D0AF0A0B3AD0AF0A0B5AF0AF0A0B6B20AF0A0B7880AE6A5950AE9B0AF0AE89EA50AF0A0B8840AF0A0B88E0AF0A0BB97
  0AF0A0BE900AF0A0BCAD0AF0A0B9B30AE5B0A00AF0A0BEBC0AE5B88B0AF0A1819C0AF0A1818F0AF0A181B60AE69C9E0A
  F0A181BB0AF0A182880AF0A182960AE399870AF0A182BF0AF0A183930AF0A184AF0AF0A184BB0AE58DA40AE892AD0AF0
  A18BA30AF0A18DB50AF0A18CB60AE8AE810AF0A195B70AF0A198990AF0A19F830AF0A19F870AE4B9B80AE782BB0AF0A1
  A0AD0AF0A1A5AA0A"

/-- tests/test_data/whatwg/big5_whatwg_test_encode_in.txt, part 26 -/
noncomputable def encodeIn25 : List Nat := hex! "E98BA30AE98BAB0AE98BB30AE98BB40AE98BBD0AE98D830AE98E840AE98EAD0AE4A5850AE4A5910AE9BABF0AE990970A
  E58C810AE9909D0AE990AD0AE990BE0AE4A5AA0AE991940AE991B90AE994AD0AE996A20AE4A6A70AE997B40AE998B30A
  E4A7A50AE69EA00AE4A8A40AE99D800AE4A8B50AE99EB20AE99F820AE599940AE4ABA40AE683A80AE9A2B90AE4AC990A
  E9A3B10AE5A1840AE9A48E0AE9A4990AE586B40AE9A49C0AE9A4B70AE9A5820AE9A59D0AE9A5A20AE4ADB00AE9A7850A
  E4AE9D0AE9A8BC0AE9AC8F0AE7AA830AE9ADA90AE9AE810AE9AF9D0AE9AFB10AE9AFB40AE4B1AD0AE9B0A00AE39DAF0A
  F0A1AF820AE9B5890AE9B0BA0AE9BBBE0AE599900AE9B6930AE9B6BD0AE9B7800AE9B7BC0AE993B60AE8BEB60AE9B9BB
  0AE9BAAC0AE9BAB10AE9BABD0AE9BB860AE9939C0AE9BBA20AE9BBB10AE9BBB80AE7AB880AE9BD840AF0A082940AF0A0
  8AB70AF0A08EA00AE6A49A0AE993830AE5A6AC0AF0A093970AE5A1800AE993810AE39EB90AF0A097950AF0A098950AF0
  A099B60AF0A19ABA0AE59D970AE785B30AF0A0AB820AF0A0AB8D0AF0A0AEBF0AE591AA0AF0AFA0BB0AF0A0AF8B0AE592
  9E0AF0A0AFBB0AF0A0B0BB0AF0A0B1930AF0A0B1A50AF0A0B1BC0AE683A70AF0A0B28D0AE599BA0AF0A0B2B50AF0A0B3
  9D0AF0A0B3AD0AF0A0B5AF0AF0A0B6B20AF0A0B7880AE6A5950AE9B0AF0AE89EA50AF0A0B8840AF0A0B88E0AF0A0BB97
  0AF0A0BE900AF0A0BCAD0AF0A0B9B30AE5B0A00AF0A0BEBC0AE5B88B0AF0A1819C0AF0A1818F0AF0A181B60AE69C9E0A
  F0A181BB0AF0A182880AF0A182960AE399870AF0A182BF0AF0A183930AF0A184AF0AF0A184BB0AE58DA40AE892AD0AF0
  A18BA30AF0A18DB50AF0A18CB60AE8AE810AF0A195B70AF0A198990AF0A19F830AF0A19F870AE4B9B80AE782BB0AF0A1
  A0AD0AF0A1A5AA0A"

/-- tests/test_data/whatwg/big5_whatwg_test_encode_out.txt, part 26 -/
noncomputable def encodeOut25 : List Nat := hex! "9A400A9A410A9A420A9A430A9A440A9A450A9A460A9A470A9A480A9A490A9A4A0A9A4B0A9A4C0A9A4D0A9A4E0A9A4F0A
  9A500A9A510A9A520A9A530A9A540A9A550A9A560A9A570A9A580A9A590A9A5A0A9A5B0A9A5C0A9A5D0A9A5E0A9A5F0A
  9A600A9A610A9A620A9A630A9A640A9A650A9A660A9A670A9A680A9A690A9A6A0A9A6B0A9A6C0A9A6D0A9A6E0A9A6F0A
  9A700A9A710A9A720A9A730A9A740A9A750A9A760A9A770A9A780A9A790A9A7A0A9A7B0A9A7C0A9A7D0A9A7E0A9AA10A
  9AA20A9AA30A9AA40A9AA50A9AA60A9AA70A9AA80A9AA90A9AAA0A9AAB0A9AAC0A9AAD0A9AAE0A9AAF0A9AB00A9AB10A
  9AB20A9AB30A9AB40A9AB50A9AB60A9AB70A9AB80A9AB90A9ABA0A9ABB0A9ABC0A9ABD0A9ABE0A9ABF0A9AC00A9AC10A
  9AC20A9AC30A9AC40A9AC50A9AC60A9AC70A9AC80A9AC90A9ACA0A9ACB0A9ACC0A9ACD0A9ACE0A9ACF0A9AD00A9AD10A
  9AD20A9AD30A9AD40A9AD50A9AD60A9AD70A9AD80A9AD90A9ADA0A9ADB0A9ADC0A9ADD0A9ADE0A9ADF0A9AE00A9AE10A
  9AE20A9AE30A9AE40A9AE50A9AE60A9AE70A9AE80A9AE90A9AEA0A9AEB0A9AEC0A9AED0A9AEE0A9AEF0A9AF00A9AF10A
  9AF20A9AF30A9AF40A9AF50A9AF60A9AF70A9AF80A9AF90A9AFA0A9AFB0A9AFC0A9AFD0A9AFE0A"

/-- tests/test_data/whatwg/big5_whatwg_test_decode_in.txt, part 27 -/
noncomputable def decodeIn26 : List Nat := hex! "9B400A9B410A9B420A9B430A9B440A9B450A9B460A9B470A9B480A9B490A9B4A0A9B4B0A9B4C0A9B4D0A9B4E0A9B4F0A
  9B500A9B510A9B520A9B530A9B540A9B550A9B560A9B570A9B580A9B590A9B5A0A9B5B0A9B5C0A9B5D0A9B5E0A9B5F0A
  9B600A9B620A9B630A9B640A9B650A9B660A9B670A9B680A9B690A9B6A0A9B6B0A9B6C0A9B6D0A9B6E0A9B6F0A9B700A
  9B710A9B720A9B730A9B740A9B750A9B760A9B770A9B780A9B790A9B7A0A9B7B0A9B7C0A9B7D0A9B7E0A9BA10A9BA20A
  9BA30A9BA40A9BA50A9BA60A9BA70A9BA80A9BA90A9BAA0A9BAB0A9BAC0A9BAD0A9BAE0A9BAF0A9BB00A9BB10A9BB20A
  9BB30A9BB40A9BB50A9BB60A9BB70A9BB80A9BB90A9BBA0A9BBB0A9BBC0A9BBD0A9BBE0A9BBF0A9BC00A9BC10A9BC20A
  9BC30A9BC40A9BC50A9BC60A9BC70A9BC80A9BC90A9BCA0A9BCB0A9BCC0A9BCD0A9BCE0A9BCF0A9BD00A9BD10A9BD20A
  9BD30A9BD40A9BD50A9BD60A9BD70A9BD80A9BD90A9BDA0A9BDB0A9BDC0A9BDD0A9BDE0A9BDF0A9BE00A9BE10A9BE20A
  9BE30A9BE40A9BE50A9BE60A9BE70A9BE80A9BE90A9BEA0A9BEB0A9BEC0A9BED0A9BEE0A9BEF0A9BF00A9BF10A9BF20A
  9BF30A9BF40A9BF50A9BF60A9BF70A9BF80A9BF90A9BFA0A9BFB0A9BFC0A9BFD0A9BFE0A"

/-- tests/test_data/whatwg/big5_whatwg_test_decode_out.txt, part 27 -/
noncomputable def decodeOut26 : List Nat := hex! "F0A1A8AD0AF0A1A9850AF0A1B0AA0AF0A1B1B00AF0A1B2AC0AF0A1BB880AE68B830AF0A1BB950AF0A1BC950AE786980A
  E6A1950AF0A281850AE6A7A90AE39B880AF0A289BC0AF0A28F970AF0A28FBA0AF0A29CAA0AF0A2A1B10AF0A2A58F0AE8
  8BBD0AF0A2A5A70AF0A2A6930AF0A2AB950AE8A6A50AF0A2ABA80AE8BEA00AF0A2AC8E0AE99EB80AF0A2ACBF0AE9A187
  0AE9AABD0AF0A2B18C0AF0A2B2880AF0A2B2B70AF0A5AFA80AF0A2B4880AF0A2B4920AF0A2B6B70AF0A2B6950AF0A2B9
  820AF0A2BDB40AF0A2BF8C0AF0A380B30AF0A381A60AF0A38C9F0AF0A38F9E0AE5BEB10AE699880AE69ABF0AF0A7A9B9
  0AF0A395A70AF0A397B30AE788810AF0A4A6BA0AE79F970AF0A3989A0AF0A39C960AE7BA870AF0A08D860AE5A2B50AE6
  9C8E0AE6A4980AF0A3AAA70AF0A799970AF0A5BFA20AF0A3B8910AF0A3BAB90AF0A797BE0AF0A2829A0AE4A3900AE4AA
  B80AF0A484990AF0A8AA9A0AF0A48BAE0AF0A48C8D0AF0A480BB0AF0A48CB40AF0A48E960AF0A4A9850AF0A0978A0AE5
  87920AF0A098910AE5A69F0AF0A1BAA80AE3AEBE0AF0A3B3BF0AF0A490840AF0A493960AE59E880AF0A499B40AE3A69B
  0AF0A49CAF0AF0A897A80AF0A9A7890AE39DA20AF0A287830AE8AD9E0AF0A8AD8E0AE9A7960AF0A4A0920AF0A4A3BB0A
  F0A4A8950AE788890AF0A4AB800AF0A0B1B80AE5A5A50AF0A4BAA50AF0A4BE860AF0A09DB90AE8BB9A0AF0A580AC0AE5
  8A8F0AE59CBF0AE785B10AF0A58A990AF0A590990AF0A3BD8A0AF0A4AAA70AE596BC0AF0A591860AF0A591AE0AF0A6AD
  920AE987940AE391B30AF0A594BF0AF0A798B20AF0A5959E0AE49C980AF0A595A20AF0A595A60AF0A59F870AF0A4A4BF
  0AF0A5A19D0AE581A60AE393BB0AF0A38F8C0AE6839E0AF0A5A4830AE49DBC0AF0A8A5880AF0A5AAAE0AF0A5AE890AF0
  A5B0860AF0A1B6900AE59EA10AE785910AE6BEB60AF0A684820AF0A7B0920AE981960AF0A686B20AF0A4BE9A0AE8ADA2
  0AF0A690820AF0A6918A0A"

/-- tests/test_data/whatwg/big5_whatwg_test_encode_in.txt, part 27 -/
noncomputable def encodeIn26 : List Nat := hex! "F0A1A8AD0AF0A1A9850AF0A1B0AA0AF0A1B1B00AF0A1B2AC0AF0A1BB880AE68B830AF0A1BB950AF0A1BC950AE786980A
  E6A1950AF0A281850AE6A7A90AE39B880AF0A289BC0AF0A28F970AF0A28FBA0AF0A29CAA0AF0A2A1B10AF0A2A58F0AE8
  8BBD0AF0A2A5A70AF0A2A6930AF0A2AB950AE8A6A50AF0A2ABA80AE8BEA00AF0A2AC8E0AE99EB80AF0A2ACBF0AE9A187
  0AE9AABD0AF0A2B18C0AF0A2B2880AF0A2B2B70AF0A5AFA80AF0A2B4880AF0A2B4920AF0A2B6B70AF0A2B6950AF0A2B9
  820AF0A2BDB40AF0A2BF8C0AF0A380B30AF0A381A60AF0A38C9F0AF0A38F9E0AE5BEB10AE699880AE69ABF0AF0A7A9B9
  0AF0A395A70AF0A397B30AE788810AF0A4A6BA0AE79F970AF0A3989A0AF0A39C960AE7BA870AF0A08D860AE5A2B50AE6
  9C8E0AE6A4980AF0A3AAA70AF0A799970AF0A5BFA20AF0A3B8910AF0A3BAB90AF0A797BE0AF0A2829A0AE4A3900AE4AA
  B80AF0A484990AF0A8AA9A0AF0A48BAE0AF0A48C8D0AF0A480BB0AF0A48CB40AF0A48E960AF0A4A9850AF0A0978A0AE5
  87920AF0A098910AE5A69F0AF0A1BAA80AE3AEBE0AF0A3B3BF0AF0A490840AF0A493960AE59E880AF0A499B40AE3A69B
  0AF0A49CAF0AF0A897A80AF0A9A7890AE39DA20AF0A287830AE8AD9E0AF0A8AD8E0AE9A7960AF0A4A0920AF0A4A3BB0A
  F0A4A8950AE788890AF0A4AB800AF0A0B1B80AE5A5A50AF0A4BAA50AF0A4BE860AF0A09DB90AE8BB9A0AF0A580AC0AE5
  8A8F0AE59CBF0AE785B10AF0A58A990AF0A590990AF0A3BD8A0AF0A4AAA70AE596BC0AF0A591860AF0A591AE0AF0A6AD
  920AE987940AE391B30AF0A594BF0AF0A798B20AF0A5959E0AE49C980AF0A595A20AF0A595A60AF0A59F870AF0A4A4BF
  0AF0A5A19D0AE581A60AE393BB0AF0A38F8C0AE6839E0AF0A5A4830AE49DBC0AF0A8A5880AF0A5AAAE0AF0A5AE890AF0
  A5B0860AF0A1B6900AE59EA10AE785910AE6BEB60AF0A684820AF0A7B0920AE981960AF0A686B20AF0A4BE9A0AE8ADA2
  0AF0A690820AF0A6918A0A"

/-- tests/test_data/whatwg/big5_whatwg_test_encode_out.txt, part 27 -/
noncomputable def encodeOut26 : List Nat := hex! "9B400A9B410A9B420A9B430A9B440A9B450A9B460A9B470A9B480A9B490A9B4A0A9B4B0A9B4C0A9B4D0A9B4E0A9B4F0A
  9B500A9B510A9B520A9B530A9B540A9B550A9B560A9B570A9B580A9B590A9B5A0A9B5B0A9B5C0A9B5D0A9B5E0A9B5F0A
  9B600A9B620A9B630A9B640A9B650A9B660A9B670A9B680A9B690A9B6A0A9B6B0A9B6C0A9B6D0A9B6E0A9B6F0A9B700A
  9B710A9B720A9B730A9B740A9B750A9B760A9B770A9B780A9B790A9B7A0A9B7B0A9B7C0A9B7D0A9B7E0A9BA10A9BA20A
  9BA30A9BA40A9BA50A9BA60A9BA70A9BA80A9BA90A9BAA0A9BAB0A9BAC0A9BAD0A9BAE0A9BAF0A9BB00A9BB10A9BB20A
  9BB30A9BB40A9BB50A9BB60A9BB70A9BB80A9BB90A9BBA0A9BBB0A9BBC0A9BBD0A9BBE0A9BBF0A9BC00A9BC10A9BC20A
  9BC30A9BC40A9BC50A9BC60A9BC70A9BC80A9BC90A9BCA0A9BCB0A9BCC0A9BCD0A9BCE0A9BCF0A9BD00A9BD10A9BD20A
  9BD30A9BD40A9BD50A9BD60A9BD70A9BD80A9BD90A9BDA0A9BDB0A9BDC0A9BDD0A9BDE0A9BDF0A9BE00A9BE10A9BE20A
  9BE30A9BE40A9BE50A9BE60A9BE70A9BE80A9BE90A9BEA0A9BEB0A9BEC0A9BED0A9BEE0A9BEF0A9BF00A9BF10A9BF20A
  9BF30A9BF40A9BF50A9BF60A9BF70A9BF80A9BF90A9BFA0A9BFB0A9BFC0A9BFD0A9BFE0A"

/-- tests/test_data/whatwg/big5_whatwg_test_decode_in.txt, part 28 -/
noncomputable def decodeIn27 : List Nat := hex! "9C400A9C410A9C420A9C430A9C440A9C450A9C460A9C470A9C480A9C490A9C4A0A9C4B0A9C4C0A9C4D0A9C4E0A9C4F0A
  9C500A9C510A9C520A9C530A9C540A9C550A9C560A9C570A9C580A9C590A9C5A0A9C5B0A9C5C0A9C5D0A9C5E0A9C5F0A
  9C600A9C610A9C620A9C630A9C640A9C650A9C660A9C670A9C680A9C690A9C6A0A9C6B0A9C6C0A9C6D0A9C6E0A9C6F0A
  9C700A9C710A9C720A9C730A9C740A9C750A9C760A9C770A9C780A9C790A9C7A0A9C7B0A9C7C0A9C7D0A9C7E0A9CA10A
  9CA20A9CA30A9CA40A9CA50A9CA60A9CA70A9CA80A9CA90A9CAA0A9CAB0A9CAC0A9CAD0A9CAE0A9CAF0A9CB00A9CB10A
  9CB20A9CB30A9CB40A9CB50A9CB60A9CB70A9CB80A9CB90A9CBA0A9CBB0A9CBC0A9CBD0A9CBE0A9CBF0A9CC00A9CC10A
  9CC20A9CC30A9CC40A9CC50A9CC60A9CC70A9CC80A9CC90A9CCA0A9CCB0A9CCC0A9CCD0A9CCE0A9CCF0A9CD00A9CD10A
  9CD20A9CD30A9CD40A9CD50A9CD60A9CD70A9CD80A9CD90A9CDA0A9CDB0A9CDC0A9CDD0A9CDE0A9CDF0A9CE00A9CE10A
  9CE20A9CE30A9CE40A9CE50A9CE60A9CE70A9CE80A9CE90A9CEA0A9CEB0A9CEC0A9CED0A9CEE0A9CEF0A9CF00A9CF10A
  9CF20A9CF30A9CF40A9CF50A9CF60A9CF70A9CF80A9CF90A9CFA0A9CFB0A9CFC0A9CFD0A9CFE0A"

/-- tests/test_data/whatwg/big5_whatwg_test_decode_out.txt, part 28 -/
noncomputable def decodeOut27 : List Nat := hex! "E5B59B0AF0A6AFB70AE8BCB60AF0A692840AF0A1A49C0AE8ABAA0AF0A4A7B60AF0A692880AF0A3BFAF0AF0A694920AE4
  AF800AF0A696BF0AF0A69AB50AF0A29C9B0AE991A50AF0A59FA10AE686950AE5A8A70AF0AFA38D0AE4BEBB0AE59AB90A
  F0A494A10AF0A69BBC0AE4B9AA0AF0A4A4B40AE999960AE6B68F0AF0A6B2BD0AE398980AE8A5B70AF0A69E990AF0A6A1
  AE0AF0A690910AF0A6A19E0AE7879F0AF0A6A3870AE7AD820AF0A983800AF0A0A8910AF0A6A4A60AE984840AF0A6A4B9
  0AE7A9850AE9B7B00AF0A6A7BA0AE9A8A60AF0A6A8AD0AE3999F0AF0A691A90AF0A080A10AE7A6830AF0A6A8B40AF0A6
  AD9B0AE5B4AC0AF0A394990AE88F8F0AF0A6AE9D0AE49B900AF0A6B2A40AE794BB0AE8A1A50AF0A6B6AE0AE5A2B60AE3
  9C9C0AF0A2968D0AF0A7818B0AF0A7878D0AE3B1940AF0A78A800AF0A78A850AE98A810AF0A285BA0AF0A78A8B0AE98C
  B00AF0A78BA60AF0A4A7900AE6B0B90AE9929F0AF0A791900AF0A0BBB80AE8A0A70AE8A3B50AF0A2A4A60AF0A891B30A
  F0A19EB10AE6BAB80AF0A4A8AA0AF0A1A0A00AE3A6A40AE39AB90AE5B0900AE7A7A30AE494BF0AE69AB60AF0A9B2AD0A
  F0A9A2A40AE8A5830AF0A79F8C0AF0A7A1980AE59B960AE4839F0AF0A1988A0AE3A6A10AF0A39CAF0AF0A883A80AF0A1
  8F850AE786AD0AE88DA60AF0A7A79D0AF0A986A80AE5A9A70AE4B2B70AF0A782AF0AF0A8A6AB0AF0A7A7BD0AF0A7A88A
  0AF0A7AC8B0AF0A7B5A60AF0A485BA0AE7AD830AE7A5BE0AF0A880890AE6BEB50AF0AA8B9F0AE6A8830AF0A88C980AE5
  8EA20AF0A6B8870AE98EBF0AE6A0B60AE99D9D0AF0A885AF0AF0A880A30AF0A6A6B50AF0A18FAD0AF0A388AF0AF0A881
  880AE5B6850AF0A8B0B00AF0A882830AE59C950AE9A0A30AF0A8A5890AE5B6AB0AF0A4A6880AE696BE0AE6A7950AE58F
  920AF0A4AAA50AF0A3BE810AE3B0910AE69CB60AF0A882900AF0A883B40AF0A884AE0AF0A1BEA10AF0A8858F0A"

/-- tests/test_data/whatwg/big5_whatwg_test_encode_in.txt, part 28 -/
noncomputable def encodeIn27 : List Nat := hex! "E5B59B0AF0A6AFB70AE8BCB60AF0A692840AF0A1A49C0AE8ABAA0AF0A4A7B60AF0A692880AF0A3BFAF0AF0A694920AE4
  AF800AF0A696BF0AF0A69AB50AF0A29C9B0AE991A50AF0A59FA10AE686950AE5A8A70AF0AFA38D0AE4BEBB0AE59AB90A
  F0A494A10AF0A69BBC0AE4B9AA0AF0A4A4B40AE999960AE6B68F0AF0A6B2BD0AE398980AE8A5B70AF0A69E990AF0A6A1
  AE0AF0A690910AF0A6A19E0AE7879F0AF0A6A3870AE7AD820AF0A983800AF0A0A8910AF0A6A4A60AE984840AF0A6A4B9
  0AE7A9850AE9B7B00AF0A6A7BA0AE9A8A60AF0A6A8AD0AE3999F0AF0A691A90AF0A080A10AE7A6830AF0A6A8B40AF0A6
  AD9B0AE5B4AC0AF0A394990AE88F8F0AF0A6AE9D0AE49B900AF0A6B2A40AE794BB0AE8A1A50AF0A6B6AE0AE5A2B60AE3
  9C9C0AF0A2968D0AF0A7818B0AF0A7878D0AE3B1940AF0A78A800AF0A78A850AE98A810AF0A285BA0AF0A78A8B0AE98C
  B00AF0A78BA60AF0A4A7900AE6B0B90AE9929F0AF0A791900AF0A0BBB80AE8A0A70AE8A3B50AF0A2A4A60AF0A891B30A
  F0A19EB10AE6BAB80AF0A4A8AA0AF0A1A0A00AE3A6A40AE39AB90AE5B0900AE7A7A30AE494BF0AE69AB60AF0A9B2AD0A
  F0A9A2A40AE8A5830AF0A79F8C0AF0A7A1980AE59B960AE4839F0AF0A1988A0AE3A6A10AF0A39CAF0AF0A883A80AF0A1
  8F850AE786AD0AE88DA60AF0A7A79D0AF0A986A80AE5A9A70AE4B2B70AF0A782AF0AF0A8A6AB0AF0A7A7BD0AF0A7A88A
  0AF0A7AC8B0AF0A7B5A60AF0A485BA0AE7AD830AE7A5BE0AF0A880890AE6BEB50AF0AA8B9F0AE6A8830AF0A88C980AE5
  8EA20AF0A6B8870AE98EBF0AE6A0B60AF0A885AF0AF0A880A30AF0A6A6B50AF0A18FAD0AF0A388AF0AF0A881880AE5B6
  850AF0A8B0B00AF0A882830AE59C950AE9A0A30AF0A8A5890AE5B6AB0AF0A4A6880AE696BE0AE6A7950AE58F920AF0A4
  AAA50AF0A3BE810AE3B0910AE69CB60AF0A882900AF0A883B40AF0A884AE0AF0A1BEA10AF0A8858F0A"

/-- tests/test_data/whatwg/big5_whatwg_test_encode_out.txt, part 28 -/
noncomputable def encodeOut27 : List Nat := hex! "9C400A9C410A9C420A9C430A9C440A9C450A9C460A9C470A9C480A9C490A9C4A0A9C4B0A9C4C0A9C4D0A9C4E0A9C4F0A
  9C500A9C510A9C520A9C530A9C540A9C550A9C560A9C570A9C580A9C590A9C5A0A9C5B0A9C5C0A9C5D0A9C5E0A9C5F0A
  9C600A9C610A9C620A9C630A9C640A9C650A9C660A9C670A9C680A9C690A9C6A0A9C6B0A9C6C0A9C6D0A9C6E0A9C6F0A
  9C700A9C710A9C720A9C730A9C740A9C750A9C760A9C770A9C780A9C790A9C7A0A9C7B0A9C7C0A9C7D0A9C7E0A9CA10A
  9CA20A9CA30A9CA40A9CA50A9CA60A9CA70A9CA80A9CA90A9CAA0A9CAB0A9CAC0A9CAD0A9CAE0A9CAF0A9CB00A9CB10A
  9CB20A9CB30A9CB40A9CB50A9CB60A9CB70A9CB80A9CB90A9CBA0A9CBB0A9CBC0A9CBD0A9CBE0A9CBF0A9CC00A9CC10A
  9CC20A9CC30A9CC40A9CC50A9CC60A9CC70A9CC80A9CC90A9CCA0A9CCB0A9CCC0A9CCD0A9CCE0A9CCF0A9CD00A9CD10A
  9CD20A9CD30A9CD40A9CD50A9CD60A9CD70A9CD80A9CD90A9CDA0A9CDB0A9CDC0A9CDD0A9CDE0A9CDF0A9CE00A9CE10A
  9CE20A9CE30A9CE50A9CE60A9CE70A9CE80A9CE90A9CEA0A9CEB0A9CEC0A9CED0A9CEE0A9CEF0A9CF00A9CF10A9CF20A
  9CF30A9CF40A9CF50A9CF60A9CF70A9CF80A9CF90A9CFA0A9CFB0A9CFC0A9CFD0A9CFE0A"

/-- tests/test_data/whatwg/big5_whatwg_test_decode_in.txt, part 29 -/
noncomputable def decodeIn28 : List Nat := hex! "9D400A9D410A9D420A9D430A9D440A9D450A9D460A9D470A9D480A9D490A9D4A0A9D4B0A9D4C0A9D4D0A9D4E0A9D4F0A
  9D500A9D510A9D520A9D530A9D540A9D550A9D560A9D570A9D580A9D590A9D5A0A9D5B0A9D5C0A9D5D0A9D5E0A9D5F0A
  9D600A9D610A9D620A9D630A9D640A9D650A9D660A9D670A9D680A9D690A9D6A0A9D6B0A9D6C0A9D6D0A9D6E0A9D6F0A
  9D700A9D710A9D720A9D730A9D740A9D750A9D760A9D770A9D780A9D790A9D7A0A9D7B0A9D7C0A9D7D0A9D7E0A9DA10A
  9DA20A9DA30A9DA40A9DA50A9DA60A9DA70A9DA80A9DA90A9DAA0A9DAB0A9DAC0A9DAD0A9DAE0A9DAF0A9DB00A9DB10A
  9DB20A9DB30A9DB40A9DB50A9DB60A9DB70A9DB80A9DB90A9DBA0A9DBB0A9DBC0A9DBD0A9DBE0A9DBF0A9DC00A9DC10A
  9DC20A9DC30A9DC40A9DC50A9DC60A9DC70A9DC80A9DC90A9DCA0A9DCB0A9DCC0A9DCD0A9DCE0A9DCF0A9DD00A9DD10A
  9DD20A9DD30A9DD40A9DD50A9DD60A9DD70A9DD80A9DD90A9DDA0A9DDB0A9DDC0A9DDD0A9DDE0A9DDF0A9DE00A9DE10A
  9DE20A9DE30A9DE40A9DE50A9DE60A9DE70A9DE80A9DE90A9DEA0A9DEB0A9DEC0A9DED0A9DEE0A9DEF0A9DF00A9DF10A
  9DF20A9DF30A9DF40A9DF50A9DF60A9DF70A9DF80A9DF90A9DFA0A9DFB0A9DFC0A9DFD0A9DFE0A"

/-- tests/test_data/whatwg/big5_whatwg_test_decode_out.txt, part 29 -/
noncomputable def decodeOut28 : List Nat := hex! "F0A886890AF0A886AF0AF0A8889A0AF0A88C860AF0A88CAF0AF0A88E8A0AE3978A0AF0A891A80AF0A89AAA0AE4A3BA0A
  E68FA60AF0A8A5960AE7A0880AE989950AF0A8A6B80AE48FB20AF0A8A7A70AE48F9F0AF0A8A7A80AF0A8AD860AF0A8AF
  940AE5A7B80AF0A8B0890AE8BC8B0AF0A8BF850AF0A983AC0AE7AD910AF0A984900AF0A984BC0AE3B7B70AF0A9859E0A
  F0A4AB8A0AE8BF900AE78A8F0AE59A8B0AF0A993A70AF0A997A90AF0A996B00AF0A996B80AF0A99CB20AF0A9A3910AF0
  A9A5890AF0A9A5AA0AF0A9A7830AF0A9A8A80AF0A9AC8E0AF0A9B59A0AF0A9B69B0AE7BA9F0AF0A9BBB80AF0A9BCA30A
  E4B2A40AE995870AF0AA8A930AE786A20AF0AA8BBF0AE4B6910AE980920AF0AA978B0AE4B69C0AF0A0B29C0AE8BEBE0A
  E597810AE8BEBA0AF0A292B00AE8BEB90AF0A4AA930AE494890AE7B9BF0AE6BD960AE6AAB10AE4BBAA0AE393A40AF0A8
  ACAC0AF0A7A29D0AE39CBA0AE8BA800AF0A19FB50AF0A880A40AF0A8ADAC0AF0A8AE990AF0A7A8BE0AF0A69AAF0AE3B7
  AB0AF0A799950AF0A3B2B70AF0A598B50AF0A5A5960AE4BA9A0AF0A5BA810AF0A689980AE59ABF0AF0A0B9AD0AE8B88E
  0AE5ADAD0AF0A3BA880AF0A4B29E0AE68F9E0AE68B900AF0A19FB60AF0A1A1BB0AE694B00AE598AD0AF0A5B18A0AE590
  9A0AF0A58C910AE3B7860AF0A9B6980AE4B1BD0AE598A20AE5989E0AE7BD890AF0A5BB980AE5A5B50AF0A3B5800AE89D
  B00AE4B89C0AF0A0BFAA0AF0A0B5890AF0A39ABA0AE884970AE9B59E0AE8B4980AE798BB0AE9B1850AE7998E0AE79EB9
  0AE98D850AE590B20AE885880AE88BB70AE598A50AE884B20AE890980AE882BD0AE597AA0AE7A5A20AE599830AE59096
  0AF0A0BA9D0AE3978E0AE598850AE597B10AE69BB10AF0A88BA20AE398AD0AE794B40AE597B00AE596BA0AE592970AE5
  95B20AF0A0B1810AF0A0B2960AE5BB900AF0A585880AF0A0B9B60AF0A2B1A20A"

/-- tests/test_data/whatwg/big5_whatwg_test_encode_in.txt, part 29 -/
noncomputable def encodeIn28 : List Nat := hex! "F0A886890AF0A886AF0AF0A8889A0AF0A88C860AF0A88CAF0AF0A88E8A0AE3978A0AF0A891A80AF0A89AAA0AE4A3BA0A
  E68FA60AF0A8A5960AE7A0880AE989950AF0A8A6B80AE48FB20AF0A8A7A70AE48F9F0AF0A8A7A80AF0A8AD860AF0A8AF
  940AE5A7B80AF0A8B0890AE8BC8B0AF0A8BF850AF0A983AC0AE7AD910AF0A984900AF0A984BC0AE3B7B70AF0A9859E0A
  F0A4AB8A0AE8BF900AE78A8F0AE59A8B0AF0A993A70AF0A997A90AF0A996B00AF0A996B80AF0A99CB20AF0A9A3910AF0
  A9A5890AF0A9A5AA0AF0A9A7830AF0A9A8A80AF0A9AC8E0AF0A9B59A0AF0A9B69B0AE7BA9F0AF0A9BBB80AF0A9BCA30A
  E4B2A40AE995870AF0AA8A930AE786A20AF0AA8BBF0AE4B6910AE980920AF0AA978B0AE4B69C0AF0A0B29C0AE8BEBE0A
  E597810AE8BEBA0AF0A292B00AE8BEB90AF0A4AA930AE494890AE7B9BF0AE6BD960AE6AAB10AE4BBAA0AE393A40AF0A8
  ACAC0AF0A7A29D0AE39CBA0AE8BA800AF0A19FB50AF0A880A40AF0A8ADAC0AF0A8AE990AF0A7A8BE0AF0A69AAF0AE3B7
  AB0AF0A799950AF0A3B2B70AF0A598B50AF0A5A5960AE4BA9A0AF0A5BA810AF0A689980AE59ABF0AF0A0B9AD0AE8B88E
  0AE5ADAD0AF0A3BA880AF0A4B29E0AE68F9E0AE68B900AF0A19FB60AF0A1A1BB0AE694B00AE598AD0AF0A5B18A0AE590
  9A0AF0A58C910AE3B7860AF0A9B6980AE4B1BD0AE598A20AE5989E0AE7BD890AF0A5BB980AE5A5B50AF0A3B5800AE89D
  B00AE4B89C0AF0A0BFAA0AF0A0B5890AF0A39ABA0AE884970AE9B59E0AE8B4980AE798BB0AE9B1850AE7998E0AE79EB9
  0AE98D850AE590B20AE885880AE88BB70AE598A50AE884B20AE890980AE882BD0AE597AA0AE7A5A20AE599830AE59096
  0AF0A0BA9D0AE3978E0AE598850AE597B10AE69BB10AF0A88BA20AE398AD0AE794B40AE597B00AE596BA0AE592970AE5
  95B20AF0A0B1810AF0A0B2960AE5BB900AF0A585880AF0A0B9B60AF0A2B1A20A"

/-- tests/test_data/whatwg/big5_whatwg_test_encode_out.txt, part 29 -/
noncomputable def encodeOut28 : List Nat := hex! "9D400A9D410A9D420A9D430A9D440A9D450A9D460A9D470A9D480A9D490A9D4A0A9D4B0A9D4C0A9D4D0A9D4E0A9D4F0A
  9D500A9D510A9D520A9D530A9D540A9D550A9D560A9D570A9D580A9D590A9D5A0A9D5B0A9D5C0A9D5D0A9D5E0A9D5F0A
  9D600A9D610A9D620A9D630A9D640A9D650A9D660A9D670A9D680A9D690A9D6A0A9D6B0A9D6C0A9D6D0A9D6E0A9D6F0A
  9D700A9D710A9D720A9D730A9D740A9D750A9D760A9D770A9D780A9D790A9D7A0A9D7B0A9D7C0A9D7D0A9D7E0A9DA10A
  9DA20A9DA30A9DA40A9DA50A9DA60A9DA70A9DA80A9DA90A9DAA0A9DAB0A9DAC0A9DAD0A9DAE0A9DAF0A9DB00A9DB10A
  9DB20A9DB30A9DB40A9DB50A9DB60A9DB70A9DB80A9DB90A9DBA0A9DBB0A9DBC0A9DBD0A9DBE0A9DBF0A9DC00A9DC10A
  9DC20A9DC30A9DC40A9DC50A9DC60A9DC70A9DC80A9DC90A9DCA0A9DCB0A9DCC0A9DCD0A9DCE0A9DCF0A9DD00A9DD10A
  9DD20A9DD30A9DD40A9DD50A9DD60A9DD70A9DD80A9DD90A9DDA0A9DDB0A9DDC0A9DDD0A9DDE0A9DDF0A9DE00A9DE10A
  9DE20A9DE30A9DE40A9DE50A9DE60A9DE70A9DE80A9DE90A9DEA0A9DEB0A9DEC0A9DED0A9DEE0A9DEF0A9DF00A9DF10A
  9DF20A9DF30A9DF40A9DF50A9DF60A9DF70A9DF80A9DF90A9DFA0A9DFB0A9DFC0A9DFD0A9DFE0A"

/-- tests/test_data/whatwg/big5_whatwg_test_decode_in.txt, part 30 -/
noncomputable def decodeIn29 : List Nat := hex! "9E400A9E410A9E420A9E430A9E440A9E450A9E460A9E470A9E480A9E490A9E4A0A9E4B0A9E4C0A9E4D0A9E4E0A9E4F0A
  9E500A9E510A9E520A9E530A9E540A9E550A9E560A9E570A9E580A9E590A9E5A0A9E5B0A9E5C0A9E5D0A9E5E0A9E5F0A
  9E600A9E610A9E620A9E630A9E640A9E650A9E660A9E670A9E680A9E690A9E6A0A9E6B0A9E6C0A9E6D0A9E6E0A9E6F0A
  9E700A9E710A9E720A9E730A9E740A9E750A9E760A9E770A9E780A9E790A9E7A0A9E7B0A9E7C0A9E7D0A9E7E0A9EA10A
  9EA20A9EA30A9EA40A9EA50A9EA60A9EA70A9EA80A9EA90A9EAA0A9EAB0A9EAD0A9EAE0A9EAF0A9EB00A9EB10A9EB20A
  9EB30A9EB40A9EB50A9EB60A9EB70A9EB80A9EB90A9EBA0A9EBB0A9EBC0A9EBD0A9EBE0A9EBF0A9EC00A9EC10A9EC20A
  9EC30A9EC50A9EC60A9EC70A9EC80A9EC90A9ECA0A9ECB0A9ECC0A9ECD0A9ECE0A9ECF0A9ED00A9ED10A9ED20A9ED30A
  9ED40A9ED50A9ED60A9ED70A9ED80A9ED90A9EDA0A9EDB0A9EDC0A9EDD0A9EDE0A9EDF0A9EE00A9EE10A9EE20A9EE30A
  9EE40A9EE50A9EE60A9EE70A9EE80A9EE90A9EEA0A9EEB0A9EEC0A9EED0A9EEE0A9EEF0A9EF00A9EF10A9EF20A9EF30A
  9EF50A9EF60A9EF70A9EF80A9EF90A9EFA0A9EFB0A9EFC0A9EFD0A9EFE0A"

/-- tests/test_data/whatwg/big5_whatwg_test_decode_out.txt, part 30 -/
noncomputable def decodeOut29 : List Nat := hex! "F0A0BAA20AE9BAAB0AE7B59A0AE5979E0AF0A181B50AE68A9D0AE99DAD0AE592940AE8B38D0AE787B60AE985B60AE68F
  BC0AE68EB90AE68FBE0AE595A90AF0A2AD830AE9B1B20AF0A2BAB30AE5869A0AE3939F0AF0A0B6A70AE586A70AE5918D
  0AE5949E0AE594930AE799A60AE8B8AD0AF0A6A28A0AE796B10AE882B60AE8A0840AE89E860AE8A3870AE886B60AE890
  9C0AF0A183810AE493AC0AE78C840AF0A49C860AE5AE900AE88C8B0AF0A6A2930AE599BB0AF0A29BB40AF0A7B4AF0AF0
  A486A30AF0A7B5B30AF0A6BB900AF0A78AB60AE985B00AF0A187990AE988880AF0A3B3BC0AF0AA9AA90AF0A0BAAC0AF0
  A0BBB90AE789A60AF0A1B2A20AE49D8E0AF0A4BF820AF0A7BFB90AF0A0BFAB0AE483BA0AE9B19D0AE6949F0AF0A2B6A0
  0AE4A3B30AF0A49FA00AF0A9B5BC0AF0A0BFAC0AF0A0B88A0AE681A20AF0A796A30AF0A0BFAD0AF0A681880AF0A18687
  0AE786A30AE7BA8E0AE9B5900AE4B89A0AE4B8840AE395B70AE5AC8D0AE6B2B20AE58DA70AE39AAC0AE3A79C0AE58DBD
  0AE39AA50AF0A498980AE5A29A0AF0A4ADAE0AE888AD0AE5918B0AE59EAA0AF0A5AA950AF0A0A5B90AE3A9920AF0A291
  A50AE78DB40AF0A9BAAC0AE4B4890AE9AFAD0AF0A3B3BE0AF0A9BCB00AE4B19B0AF0A4BEA90AF0A9969E0AF0A9BF9E0A
  E8919C0AF0A3B6B60AF0A78AB20AF0A69EB30AF0A39CA00AE68CAE0AE7B4A50AF0A3BBB70AF0A3B8AC0AE3A8AA0AE980
  880AE58B8C0AE3B9B40AE399BA0AE497A90AF0A0928E0AE799800AE5ABB00AF0A0BAB60AE7A1BA0AF0A7BCAE0AE5A2A7
  0AE482BF0AE599BC0AE9AE8B0AE5B5B40AE799940AF0AA90B40AE9BA850AE4B3A10AE797B90AE39FBB0AE684990AF0A3
  839A0AF0A48FB20AE5999D0AF0A18AA90AE59EA70AF0A4A5A30AF0A9B8860AE588B40AF0A782AE0AE396AD0AE6B18A0A
  E9B5BC0A"

/-- tests/test_data/whatwg/big5_whatwg_test_encode_in.txt, part 30 -/
noncomputable def encodeIn29 : List Nat := hex! "F0A0BAA20AE9BAAB0AE7B59A0AE5979E0AF0A181B50AE68A9D0AE99DAD0AE592940AE8B38D0AE787B60AE985B60AE68F
  BC0AE68EB90AE68FBE0AE595A90AF0A2AD830AE9B1B20AF0A2BAB30AE5869A0AE3939F0AF0A0B6A70AE586A70AE5918D
  0AE5949E0AE594930AE799A60AE8B8AD0AF0A6A28A0AE796B10AE882B60AE8A0840AE89E860AE8A3870AE886B60AE890
  9C0AF0A183810AE493AC0AE78C840AF0A49C860AE5AE900AE88C8B0AF0A6A2930AE599BB0AF0A29BB40AF0A7B4AF0AF0
  A486A30AF0A7B5B30AF0A6BB900AF0A78AB60AE985B00AF0A187990AE988880AF0A3B3BC0AF0AA9AA90AF0A0BAAC0AF0
  A0BBB90AE789A60AF0A1B2A20AE49D8E0AF0A4BF820AF0A7BFB90AF0A0BFAB0AE483BA0AE9B19D0AE6949F0AF0A2B6A0
  0AE4A3B30AF0A49FA00AF0A9B5BC0AF0A0BFAC0AF0A0B88A0AE681A20AF0A796A30AF0A0BFAD0AF0A681880AF0A18687
  0AE786A30AE7BA8E0AE9B5900AE4B89A0AE4B8840AE395B70AE5AC8D0AE6B2B20AE58DA70AE39AAC0AE3A79C0AE58DBD
  0AE39AA50AF0A498980AE5A29A0AF0A4ADAE0AE888AD0AE5918B0AE59EAA0AF0A5AA950AF0A0A5B90AE3A9920AF0A291
  A50AE78DB40AF0A9BAAC0AE4B4890AE9AFAD0AF0A3B3BE0AF0A9BCB00AE4B19B0AF0A4BEA90AF0A9969E0AF0A9BF9E0A
  E8919C0AF0A3B6B60AF0A78AB20AF0A69EB30AF0A39CA00AE68CAE0AE7B4A50AF0A3BBB70AF0A3B8AC0AE3A8AA0AE980
  880AE58B8C0AE3B9B40AE399BA0AE497A90AF0A0928E0AE799800AE5ABB00AF0A0BAB60AE7A1BA0AF0A7BCAE0AE5A2A7
  0AE482BF0AE599BC0AE9AE8B0AE5B5B40AE799940AF0AA90B40AE9BA850AE4B3A10AE797B90AE39FBB0AE684990AF0A3
  839A0AF0A48FB20AE5999D0AF0A18AA90AE59EA70AF0A4A5A30AF0A9B8860AE588B40AF0A782AE0AE396AD0AE6B18A0A
  E9B5BC0A"

/-- tests/test_data/whatwg/big5_whatwg_test_encode_out.txt, part 30 -/
noncomputable def encodeOut29 : List Nat := hex! "9E400A9E410A9E420A9E430A9E440A9E450A9E460A9E470A9E480A9E490A9E4A0A9E4B0A9E4C0A9E4D0A9E4E0A9E4F0A
  9E500A9E510A9E520A9E530A9E540A9E550A9E560A9E570A9E580A9E590A9E5A0A9E5B0A9E5C0A9E5D0A9E5E0A9E5F0A
  9E600A9E610A9E620A9E630A9E640A9E650A9E660A9E670A9E680A9E690A9E6A0A9E6B0A9E6C0A9E6D0A9E6E0A9E6F0A
  9E700A9E710A9E720A9E730A9E740A9E750A9E760A9E770A9E780A9E790A9E7A0A9E7B0A9E7C0A9E7D0A9E7E0A9EA10A
  9EA20A9EA30A9EA40A9EA50A9EA60A9EA70A9EA80A9EA90A9EAA0A9EAB0A9EAD0A9EAE0A9EAF0A9EB00A9EB10A9EB20A
  9EB30A9EB40A9EB50A9EB60A9EB70A9EB80A9EB90A9EBA0A9EBB0A9EBC0A9EBD0A9EBE0A9EBF0A9EC00A9EC10A9EC20A
  9EC30A9EC50A9EC60A9EC70A9EC80A9EC90A9ECA0A9ECB0A9ECC0A9ECD0A9ECE0A9ECF0A9ED00A9ED10A9ED20A9ED30A
  9ED40A9ED50A9ED60A9ED70A9ED80A9ED90A9EDA0A9EDB0A9EDC0A9EDD0A9EDE0A9EDF0A9EE00A9EE10A9EE20A9EE30A
  9EE40A9EE50A9EE60A9EE70A9EE80A9EE90A9EEA0A9EEB0A9EEC0A9EED0A9EEE0A9EEF0A9EF00A9EF10A9EF20A9EF30A
  9EF50A9EF60A9EF70A9EF80A9EF90A9EFA0A9EFB0A9EFC0A9EFD0A9EFE0A"

/-- tests/test_data/whatwg/big5_whatwg_test_decode_in.txt, part 31 -/
noncomputable def decodeIn30 : List Nat := hex! "9F400A9F410A9F420A9F430A9F440A9F450A9F460A9F470A9F480A9F490A9F4A0A9F4B0A9F4C0A9F4D0A9F4F0A9F500A
  9F510A9F520A9F530A9F540A9F550A9F560A9F570A9F580A9F590A9F5A0A9F5B0A9F5C0A9F5D0A9F5E0A9F5F0A9F600A
  9F610A9F620A9F630A9F640A9F650A9F660A9F670A9F680A9F690A9F6A0A9F6B0A9F6C0A9F6D0A9F6E0A9F6F0A9F700A
  9F710A9F720A9F730A9F740A9F750A9F760A9F770A9F780A9F790A9F7A0A9F7B0A9F7C0A9F7D0A9F7E0A9FA10A9FA20A
  9FA30A9FA40A9FA50A9FA60A9FA70A9FA80A9FA90A9FAA0A9FAB0A9FAC0A9FAE0A9FAF0A9FB00A9FB20A9FB30A9FB40A
  9FB50A9FB60A9FB70A9FB80A9FB90A9FBA0A9FBB0A9FBC0A9FBD0A9FBE0A9FBF0A9FC10A9FC20A9FC30A9FC40A9FC50A
  9FC60A9FC70A9FC90A9FCA0A9FCB0A9FCC0A9FCD0A9FCE0A9FCF0A9FD00A9FD10A9FD20A9FD30A9FD40A9FD50A9FD60A
  9FD70A9FD80A9FD90A9FDB0A9FDC0A9FDD0A9FDE0A9FDF0A9FE00A9FE10A9FE20A9FE30A9FE40A9FE50A9FE70A9FE80A
  9FE90A9FEB0A9FEC0A9FED0A9FEE0A9FF00A9FF10A9FF20A9FF30A9FF40A9FF50A9FF60A9FF70A9FF80A9FF90A9FFA0A
  9FFB0A9FFC0A9FFD0A9FFE0A"

/-- tests/test_data/whatwg/big5_whatwg_test_decode_out.txt, part 31 -/
noncomputable def decodeOut30 : List Nat := hex! "E7B1960AE9ACB90AE59F9E0AF0A19DAC0AE5B1930AE693930AF0A993900AF0A68CB50AF0A785A40AE89AAD0AF0A0B4A8
  0AF0A6B4A20AF0A4ABA20AF0A0B5B10AE587BE0AF0A1BC8F0AE5B68E0AE99C830AF0A1B7910AE9BA810AE9818C0AE7AC
  9F0AE9AC820AE5B3910AE7AEA30AE689A80AE68CB50AE9ABBF0AE7AF8F0AE9ACAA0AE7B1BE0AE9ACAE0AE7B1820AE7B2
  860AE9B0950AE7AFBC0AE9AC890AE9BC970AE9B09B0AF0A4A4BE0AE9BD9A0AE595B30AE5AF830AE4BFBD0AE9BA980AE4
  BFB20AE589A00AE3B8860AE58B910AE59DA70AE581960AE5A6B70AE5B8920AE99F880AE9B6AB0AE8BD9C0AE591A90AE9
  9EB40AE9A5800AE99EBA0AE58CAC0AE684B00AE6A4AC0AE58F9A0AE9B08A0AE9B4820AE4B0BB0AE999810AE6A6800AE5
  82A60AE795860AF0A19DAD0AE9A79A0AE589B30AE985990AE99A810AE9859C0AE985910AF0A8BA970AE68DBF0AF0A6B4
  A30AE6AB8A0AE598910AE9868E0AE795BA0AE68A850AF0A08FBC0AE78D8F0AE7B1B00AF0A5B0A10AF0A3B3BD0AF0A4A4
  990AE79B960AE9AE9D0AE4B8AA0AF0A0B3940AE88EBE0AE8A1820AE5B18A0AE6A7800AE583AD0AE59DBA0AE5889F0AE5
  B7B50AE4BB8E0AE6B0B10AF0A087B20AE4BCB90AE5929C0AE5939A0AE58A9A0AE8B6820AE397BE0AE5BC8C0AE397B30A
  E6AD920AE985BC0AE9BEA50AE9AE970AE9A0AE0AE9A2B40AE9AABA0AE9BAA80AE9BA840AE785BA0AE7AC940AE6AFBA0A
  E8A0980AE7BDB80AE598A00AF0AA998A0AE8B9B70AE9BD930AE8B7940AE8B98F0AE9B89C0AE8B8810AE68A820AF0A88D
  BD0AE8B8A80AE8B9B50AE7AB930AF0A4A9B70AE7A8BE0AE7A3980AE6B3AA0AE8A9A70AE798870A"

/-- tests/test_data/whatwg/big5_whatwg_test_encode_in.txt, part 31 -/
noncomputable def encodeIn30 : List Nat := hex! "E7B1960AE9ACB90AE59F9E0AF0A19DAC0AE5B1930AE693930AF0A993900AF0A68CB50AF0A785A40AE89AAD0AF0A0B4A8
  0AF0A6B4A20AF0A4ABA20AF0A0B5B10AE587BE0AF0A1BC8F0AE5B68E0AE99C830AF0A1B7910AE9BA810AE9818C0AE7AC
  9F0AE9AC820AE5B3910AE7AEA30AE689A80AE68CB50AE9ABBF0AE7AF8F0AE9ACAA0AE7B1BE0AE9ACAE0AE7B1820AE7B2
  860AE9B0950AE7AFBC0AE9AC890AE9B09B0AF0A4A4BE0AE9BD9A0AE595B30AE5AF830AE4BFBD0AE9BA980AE4BFB20AE5
  89A00AE3B8860AE58B910AE59DA70AE581960AE5A6B70AE5B8920AE99F880AE9B6AB0AE8BD9C0AE591A90AE99EB40AE9
  A5800AE99EBA0AE58CAC0AE684B00AE6A4AC0AE58F9A0AE9B08A0AE9B4820AE4B0BB0AE999810AE6A6800AE582A60AE7
  95860AF0A19DAD0AE9A79A0AE589B30AE985990AE99A810AE9859C0AE985910AF0A8BA970AE68DBF0AF0A6B4A30AE6AB
  8A0AE598910AE9868E0AE795BA0AE68A850AF0A08FBC0AE78D8F0AE7B1B00AF0A5B0A10AF0A3B3BD0AF0A4A4990AE79B
  960AE9AE9D0AE4B8AA0AF0A0B3940AE88EBE0AE8A1820AE5B18A0AE6A7800AE583AD0AE59DBA0AE5889F0AE5B7B50AE4
  BB8E0AE6B0B10AF0A087B20AE4BCB90AE5929C0AE5939A0AE58A9A0AE8B6820AE397BE0AE397B30AE6AD920AE985BC0A
  E9BEA50AE9AE970AE9A0AE0AE9A2B40AE9AABA0AE9BAA80AE9BA840AE785BA0AE7AC940AE6AFBA0AE8A0980AE7BDB80A
  E598A00AF0AA998A0AE8B9B70AE9BD930AE8B7940AE8B98F0AE9B89C0AE8B8810AE68A820AF0A88DBD0AE8B8A80AE8B9
  B50AE7AB930AF0A4A9B70AE7A8BE0AE7A3980AE6B3AA0AE8A9A70AE798870A"

/-- tests/test_data/whatwg/big5_whatwg_test_encode_out.txt, part 31 -/
noncomputable def encodeOut30 : List Nat := hex! "9F400A9F410A9F420A9F430A9F440A9F450A9F460A9F470A9F480A9F490A9F4A0A9F4B0A9F4C0A9F4D0A9F4F0A9F500A
  9F510A9F520A9F530A9F540A9F550A9F560A9F570A9F580A9F590A9F5A0A9F5B0A9F5C0A9F5D0A9F5E0A9F5F0A9F600A
  9F610A9F620A9F630A9F640A9F650A9F670A9F680A9F690A9F6A0A9F6B0A9F6C0A9F6D0A9F6E0A9F6F0A9F700A9F710A
  9F720A9F730A9F740A9F750A9F760A9F770A9F780A9F790A9F7A0A9F7B0A9F7C0A9F7D0A9F7E0A9FA10A9FA20A9FA30A
  9FA40A9FA50A9FA60A9FA70A9FA80A9FA90A9FAA0A9FAB0A9FAC0A9FAE0A9FAF0A9FB00A9FB20A9FB30A9FB40A9FB50A
  9FB60A9FB70A9FB80A9FB90A9FBA0A9FBB0A9FBC0A9FBD0A9FBE0A9FBF0A9FC10A9FC20A9FC30A9FC40A9FC50A9FC60A
  9FC70A9FC90A9FCA0A9FCB0A9FCC0A9FCD0A9FCE0A9FCF0A9FD00A9FD10A9FD20A9FD30A9FD40A9FD50A9FD60A9FD70A
  9FD90A9FDB0A9FDC0A9FDD0A9FDE0A9FDF0A9FE00A9FE10A9FE20A9FE30A9FE40A9FE50A9FE70A9FE80A9FE90A9FEB0A
  9FEC0A9FED0A9FEE0A9FF00A9FF10A9FF20A9FF30A9FF40A9FF50A9FF60A9FF70A9FF80A9FF90A9FFA0A9FFB0A9FFC0A
  9FFD0A9FFE0A"

/-- tests/test_data/whatwg/big5_whatwg_test_decode_in.txt, part 32 -/
noncomputable def decodeIn31 : List Nat := hex! "A0400AA0410AA0420AA0430AA0440AA0450AA0460AA0470AA0480AA0490AA04A0AA04B0AA04C0AA04D0AA04E0AA04F0A
  A0500AA0510AA0520AA0530AA0550AA0560AA0580AA0590AA05B0AA05C0AA05D0AA05E0AA05F0AA0600AA0610AA0630A
  A0640AA0650AA0660AA0670AA0680AA0690AA06A0AA06B0AA06C0AA06D0AA06E0AA06F0AA0700AA0710AA0730AA0740A
  A0750AA0760AA0770AA0780AA0790AA07A0AA07B0AA07C0AA07D0AA07E0AA0A10AA0A20AA0A30AA0A40AA0A60AA0A70A
  A0A80AA0A90AA0AA0AA0AB0AA0AC0AA0AE0AA0B00AA0B10AA0B20AA0B30AA0B40AA0B50AA0B60AA0B70AA0B80AA0B90A
  A0BA0AA0BB0AA0BC0AA0BD0AA0BE0AA0BF0AA0C00AA0C10AA0C20AA0C30AA0C40AA0C50AA0C60AA0C70AA0C80AA0C90A
  A0CA0AA0CB0AA0CC0AA0CD0AA0CE0AA0CF0AA0D00AA0D10AA0D20AA0D40AA0D50AA0D60AA0D70AA0D80AA0D90AA0DA0A
  A0DB0AA0DC0AA0DD0AA0DE0AA0DF0AA0E00AA0E20AA0E30AA0E40AA0E50AA0E60AA0E70AA0E80AA0E90AA0EA0AA0EB0A
  A0EC0AA0ED0AA0EE0AA0EF0AA0F00AA0F10AA0F20AA0F30AA0F40AA0F50AA0F60AA0F70AA0F80AA0F90AA0FA0AA0FB0A
  A0FC0AA0FD0AA0FE0A"

/-- tests/test_data/whatwg/big5_whatwg_test_decode_out.txt, part 32 -/
noncomputable def decodeOut31 : List Nat := hex! "F0A8A99A0AE9BCA60AE6B38E0AE89F960AE797830AF0AA8AB20AE7A1930AF0AFA1800AE8B48C0AE78BA20AE78DB10AE8
  ACAD0AE78C820AE793B10AE8B3AB0AF0A4AABB0AE898AF0AE5BEBA0AE8A2A00AE492B70AF0A1A0BB0AF0A6B8850AE8A9
  BE0AF0A2949B0AE683BD0AE799A70AE9AB970AE9B5840AE98DAE0AE9AE8F0AE89FB50AE8A08F0AE8B3B70AE78CAC0AE9
  9CA10AE9AEB00AE397960AE78AB20AE4B0870AE7B1910AE9A58A0AF0A685990AE685990AE4B0840AE9BA960AE685BD0A
  E59D9F0AE685AF0AE68AA60AE688B90AE68B8E0AE3A99C0AE687A20AE58EAA0AF0A38FB50AE68DA40AE6A0820AE39792
  0AE5B5970AF0A8AF820AE8BF9A0AF0A8B8B90AE583990AF0A1B5860AE7A4860AE58CB20AE998B80AF0A0BCBB0AE481A5
  0AE79FBE0AE7B3820AF0A5BC9A0AE7B39A0AE7A8AD0AE881A60AE881A30AE7B58D0AE794850AE793B20AE8A6940AE888
  9A0AE69C8C0AE881A20AF0A792860AE8819B0AE793B00AE884830AE79CA40AE8A6890AF0A69F8C0AE795930AF0A6BB91
  0AE89EA90AE89F8E0AE887880AE89E8C0AE8A9890AE8B2AD0AE8AD830AE79CAB0AE793B80AE8939A0AE398B50AE6A6B2
  0AE8B6A60AE8A6A90AE791A80AE6B6B90AE89F810AF0A480910AE793A70AE3B79B0AE785B60AE682A40AE6869C0AE3B3
  910AE785A20AE681B70AE7BDB10AF0A8ACAD0AE789900AE683A90AE4ADBE0AE588A00AE3B0980AF0A3B3870AF0A5BB97
  0AF0A799960AF0A594B10AF0A1A5840AF0A18BBE0AF0A9A4830AF0A6B79C0AF0A782AD0AE5B3810AF0A686AD0AF0A8A8
  8F0AF0A399B70AF0A083AE0AF0A6A1860AF0A4BC8E0AE495A20AE5AC9F0AF0A68D8C0AE9BD900AE9BAA60AF0A689AB0A"

/-- tests/test_data/whatwg/big5_whatwg_test_encode_in.txt, part 32 -/
noncomputable def encodeIn31 : List Nat := hex! "F0A8A99A0AE9BCA60AE6B38E0AE89F960AE797830AF0AA8AB20AE7A1930AF0AFA1800AE8B48C0AE78BA20AE78DB10AE8
  ACAD0AE78C820AE793B10AE8B3AB0AF0A4AABB0AE898AF0AE5BEBA0AE8A2A00AE492B70AF0A1A0BB0AF0A6B8850AE8A9
  BE0AF0A2949B0AE683BD0AE799A70AE9AB970AE9B5840AE9AE8F0AE89FB50AE8B3B70AE78CAC0AE99CA10AE9AEB00AE3
  97960AE78AB20AE4B0870AE7B1910AE9A58A0AF0A685990AE685990AE4B0840AE9BA960AE685BD0AE59D9F0AE685AF0A
  E68AA60AE688B90AE68B8E0AE3A99C0AE687A20AE58EAA0AF0A38FB50AE68DA40AE6A0820AE397920AE5B5970AF0A8AF
  820AE8BF9A0AF0A8B8B90AE583990AF0A1B5860AE7A4860AE58CB20AE998B80AF0A0BCBB0AE481A50AE79FBE0AE7B382
  0AF0A5BC9A0AE7B39A0AE7A8AD0AE881A60AE881A30AE7B58D0AE794850AE793B20AE8A6940AE8889A0AE69C8C0AE881
  A20AF0A792860AE8819B0AE793B00AE884830AE79CA40AE8A6890AF0A69F8C0AE795930AF0A6BB910AE89EA90AE89F8E
  0AE887880AE89E8C0AE8A9890AE8B2AD0AE8AD830AE79CAB0AE793B80AE8939A0AE398B50AE6A6B20AE8B6A60AE6B6B9
  0AE89F810AF0A480910AE793A70AE3B79B0AE785B60AE682A40AE6869C0AE3B3910AE785A20AE681B70AE7BDB10AF0A8
  ACAD0AE683A90AE4ADBE0AE588A00AE3B0980AF0A3B3870AF0A5BB970AF0A799960AF0A594B10AF0A1A5840AF0A18BBE
  0AF0A9A4830AF0A6B79C0AF0A782AD0AE5B3810AF0A686AD0AF0A8A88F0AF0A399B70AF0A083AE0AF0A6A1860AF0A4BC
  8E0AE495A20AE5AC9F0AF0A68D8C0AE9BD900AE9BAA60AF0A689AB0A"

/-- tests/test_data/whatwg/big5_whatwg_test_encode_out.txt, part 32 -/
noncomputable def encodeOut31 : List Nat := hex! "A0400AA0410AA0420AA0430AA0440AA0450AA0460AA0470AA0480AA0490AA04A0AA04B0AA04C0AA04D0AA04E0AA04F0A
  A0500AA0510AA0520AA0530AA0550AA0560AA0580AA0590AA05B0AA05C0AA05D0AA05E0AA0600AA0610AA0640AA0650A
  A0660AA0670AA0680AA0690AA06A0AA06B0AA06C0AA06D0AA06E0AA06F0AA0700AA0710AA0730AA0740AA0750AA0760A
  A0770AA0780AA0790AA07A0AA07B0AA07C0AA07D0AA07E0AA0A10AA0A20AA0A30AA0A40AA0A60AA0A70AA0A80AA0A90A
  A0AA0AA0AB0AA0AC0AA0AE0AA0B00AA0B10AA0B20AA0B30AA0B40AA0B50AA0B60AA0B70AA0B80AA0B90AA0BA0AA0BB0A
  A0BC0AA0BD0AA0BE0AA0BF0AA0C00AA0C10AA0C20AA0C30AA0C40AA0C50AA0C60AA0C70AA0C80AA0C90AA0CA0AA0CB0A
  A0CC0AA0CD0AA0CE0AA0CF0AA0D00AA0D10AA0D20AA0D60AA0D70AA0D80AA0D90AA0DA0AA0DB0AA0DC0AA0DD0AA0DE0A
  A0DF0AA0E00AA0E20AA0E30AA0E50AA0E60AA0E70AA0E80AA0E90AA0EA0AA0EB0AA0EC0AA0ED0AA0EE0AA0EF0AA0F00A
  A0F10AA0F20AA0F30AA0F40AA0F50AA0F60AA0F70AA0F80AA0F90AA0FA0AA0FB0AA0FC0AA0FD0AA0FE0A"

end Verif.Files.Big5
