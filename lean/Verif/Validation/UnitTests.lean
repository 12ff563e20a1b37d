import Verif.Lemmas.Sha2
import Verif.Model.PwFunc
import Verif.Model.BlockChain
import Verif.Model.ChainHash
import Verif.Model.Timer
import Verif.Model.DataHeader

set_option linter.unusedVariables false

/-
The unit tests of the project (/repo/tests), carried over to the model. These are tests of the model, not proofs: they show on
the cases the authors of the program chose that the model computes what the program is meant to compute. Each runs in the Lean
kernel. Where a test draws random bytes, `rnd k` stands for the k-th draw.
-/
namespace Verif.Validation

/-- the k-th draw of random bytes, `RNG::fill_random_bytes`, /repo/src/rng.cpp l.40-46 -/
def rnd (k : Nat) : Rand := ⟨true, fun i => UInt8.ofNat ((i + 1) * (2 * k + 77) + i * i * 5 + k * 31)⟩

/-- `EXPECT_TRUE` of the test framework, used in /repo/tests/utility_unittest.cpp l.15 and elsewhere -/
def expect (b : Bool) : Res Unit := if b then .ok () else .fatal .abort

/-- the exception classes a handler for `e` catches (`invalid_argument` and `length_error` are `logic_error`s), as in
/repo/tests/chainhashdata_unittest.cpp l.410 -/
def catches : Exn → Exn → Bool
  | .logicError, e => e == .logicError || e == .invalidArgument || e == .lengthError
  | c, e => c == e

/-- `EXPECT_THROW` of the test framework, used in /repo/tests/chainhashdata_unittest.cpp l.410 and elsewhere -/
def throws (c : Exn) (r : Res Unit) : Res Unit :=
  match r with
  | .exn e => expect (catches c e)
  | .ok _ => .fatal .abort
  | .fatal f => .fatal f

/-- the bytes of a string literal; the sources are UTF-8, as /repo/tests/utility_unittest.cpp l.10 shows -/
def utf8 (s : String) : List Byte := s.toUTF8.data.toList

/-- /repo/tests/sha256_unittest.cpp l.48-60, l.88-104 -/
def sha256_exact : Res Unit := do
  expect (String.ofList (← (sha2.get .sha256).hashStr (utf8 "jad")).toHex ==
    "65EBAE8E077A037D81231C1BDE91B721BF23BC3DD92BAEBDCDBE295ADE66B79F")
  expect (String.ofList (← (sha2.get .sha256).hash (← stringToBytes (utf8 "jad"))).toHex ==
    "65EBAE8E077A037D81231C1BDE91B721BF23BC3DD92BAEBDCDBE295ADE66B79F")
  expect (String.ofList (← (sha2.get .sha256).hashStr (utf8 "")).toHex ==
    "E3B0C44298FC1C149AFBF4C8996FB92427AE41E4649B934CA495991B7852B855")
  expect (String.ofList (← (sha2.get .sha256).hash (← stringToBytes (utf8 ""))).toHex ==
    "E3B0C44298FC1C149AFBF4C8996FB92427AE41E4649B934CA495991B7852B855")
  expect (String.ofList (← (sha2.get .sha256).hashStr (utf8 "z")).toHex ==
    "594E519AE499312B29433B7DD8A97FF068DEFCBA9755B6D5D00E84C524D67B06")
  expect (String.ofList (← (sha2.get .sha256).hash (← stringToBytes (utf8 "z"))).toHex ==
    "594E519AE499312B29433B7DD8A97FF068DEFCBA9755B6D5D00E84C524D67B06")
  expect (String.ofList (← (sha2.get .sha256).hashStr (utf8 "opjwdofiasasdf")).toHex ==
    "794F3B75CB2279F380C2DB0F749187B2D7DF799A2D17C7060381CC1A24C5ACF7")
  expect (String.ofList (← (sha2.get .sha256).hash (← stringToBytes (utf8 "opjwdofiasasdf"))).toHex ==
    "794F3B75CB2279F380C2DB0F749187B2D7DF799A2D17C7060381CC1A24C5ACF7")
  expect (String.ofList (← (sha2.get .sha256).hashStr (utf8 "iou32894e934zh83")).toHex ==
    "1AE020B3A284E8F8E4348692EC56D39B5776CC726366AD24D8E40F44EBCE3253")
  expect (String.ofList (← (sha2.get .sha256).hash (← stringToBytes (utf8 "iou32894e934zh83"))).toHex ==
    "1AE020B3A284E8F8E4348692EC56D39B5776CC726366AD24D8E40F44EBCE3253")
  expect (String.ofList (← (sha2.get .sha256).hashStr (utf8 "öül34.ö23-42,.34,-23.4m23oi4z239o4hz239847z2")).toHex ==
    "A5CB38E244F7A4E2FF2F0290BE1A30EF587C59FB1B08EC01CF9A84F11DD6EB28")
  expect (String.ofList (← (sha2.get .sha256).hash (← stringToBytes (utf8 "öül34.ö23-42,.34,-23.4m23oi4z239o4hz239847z2"))).toHex ==
    "A5CB38E244F7A4E2FF2F0290BE1A30EF587C59FB1B08EC01CF9A84F11DD6EB28")
  expect (String.ofList (← (sha2.get .sha256).hashStr (utf8 "asoizdfh8790qazf9up984u89auwrfsaf fjas pflsa .,4nmrt4")).toHex ==
    "29ED1592959B390A8EB22CC95AF855E016C4AFE9583C7788365274CC09DE6BD0")
  expect (String.ofList (← (sha2.get .sha256).hash (← stringToBytes (utf8 "asoizdfh8790qazf9up984u89auwrfsaf fjas pflsa .,4nmrt4"))).toHex ==
    "29ED1592959B390A8EB22CC95AF855E016C4AFE9583C7788365274CC09DE6BD0")

example : sha256_exact = .ok () := by decide +kernel

/-- /repo/tests/sha384_unittest.cpp l.48-63, l.91-110 -/
def sha384_exact : Res Unit := do
  expect (String.ofList (← (sha2.get .sha384).hashStr (utf8 "jad")).toHex ==
    "B882E19D748657B99D03F15106A7DE155251FDB5B7217A4C841CF7A2C8C52305F13783A866C83F0FA2C46A0F0DE77671")
  expect (String.ofList (← (sha2.get .sha384).hash (← stringToBytes (utf8 "jad"))).toHex ==
    "B882E19D748657B99D03F15106A7DE155251FDB5B7217A4C841CF7A2C8C52305F13783A866C83F0FA2C46A0F0DE77671")
  expect (String.ofList (← (sha2.get .sha384).hashStr (utf8 "")).toHex ==
    "38B060A751AC96384CD9327EB1B1E36A21FDB71114BE07434C0CC7BF63F6E1DA274EDEBFE76F65FBD51AD2F14898B95B")
  expect (String.ofList (← (sha2.get .sha384).hash (← stringToBytes (utf8 ""))).toHex ==
    "38B060A751AC96384CD9327EB1B1E36A21FDB71114BE07434C0CC7BF63F6E1DA274EDEBFE76F65FBD51AD2F14898B95B")
  expect (String.ofList (← (sha2.get .sha384).hashStr (utf8 "z")).toHex ==
    "C39C06CA383F11C2870C8EA1368E861CEE29DDE246368C17B6985F7A7D650D86A90AA8BBB176DDBD99F06D490F0495E5")
  expect (String.ofList (← (sha2.get .sha384).hash (← stringToBytes (utf8 "z"))).toHex ==
    "C39C06CA383F11C2870C8EA1368E861CEE29DDE246368C17B6985F7A7D650D86A90AA8BBB176DDBD99F06D490F0495E5")
  expect (String.ofList (← (sha2.get .sha384).hashStr (utf8 "opjwdofiasasdf")).toHex ==
    "A14BD4A8173EF24A875C3BF6492DBAB38C329D737A7F1EF15C88B6EC46E3E2FD68036DDC8A03031BA4DC31621F28F56E")
  expect (String.ofList (← (sha2.get .sha384).hash (← stringToBytes (utf8 "opjwdofiasasdf"))).toHex ==
    "A14BD4A8173EF24A875C3BF6492DBAB38C329D737A7F1EF15C88B6EC46E3E2FD68036DDC8A03031BA4DC31621F28F56E")
  expect (String.ofList (← (sha2.get .sha384).hashStr (utf8 "iou32894e934zh83")).toHex ==
    "BA15460F1E8755F4878CCCAEAFC2C5D3231F8531FF9EBD5B361A958470F31CBDF5E82D86C39BB288CA51700F65390281")
  expect (String.ofList (← (sha2.get .sha384).hash (← stringToBytes (utf8 "iou32894e934zh83"))).toHex ==
    "BA15460F1E8755F4878CCCAEAFC2C5D3231F8531FF9EBD5B361A958470F31CBDF5E82D86C39BB288CA51700F65390281")
  expect (String.ofList (← (sha2.get .sha384).hashStr (utf8 "öül34.ö23-42,.34,-23.4m23oi4z239o4hz239847z2")).toHex ==
    "0067E6987129B5F1E7B871428DF596AA3D0201E46BF08267826BF5B77EE6707006B8C01FC787C1A634FA5D5594492494")
  expect (String.ofList (← (sha2.get .sha384).hash (← stringToBytes (utf8 "öül34.ö23-42,.34,-23.4m23oi4z239o4hz239847z2"))).toHex ==
    "0067E6987129B5F1E7B871428DF596AA3D0201E46BF08267826BF5B77EE6707006B8C01FC787C1A634FA5D5594492494")
  expect (String.ofList (← (sha2.get .sha384).hashStr (utf8 "asoizdfh8790qazf9up984u89auwrfsaf fjas pflsa .,4nmrt4")).toHex ==
    "1623E3F3AC382A083A72A481BA2F409E772DFFCAB530092FBB87D9DA6F6A84896C6A101DB8D081F04A6FC2C92BDD767B")
  expect (String.ofList (← (sha2.get .sha384).hash (← stringToBytes (utf8 "asoizdfh8790qazf9up984u89auwrfsaf fjas pflsa .,4nmrt4"))).toHex ==
    "1623E3F3AC382A083A72A481BA2F409E772DFFCAB530092FBB87D9DA6F6A84896C6A101DB8D081F04A6FC2C92BDD767B")

example : sha384_exact = .ok () := by decide +kernel

/-- /repo/tests/sha512_unittest.cpp l.48-63, l.91-110 -/
def sha512_exact : Res Unit := do
  expect (String.ofList (← (sha2.get .sha512).hashStr (utf8 "jad")).toHex ==
    "D490D8705C47CC9E57E2388362CE1495474E0047709BF4B1F169A9FF9C0E594BB4EC8245E3374DEAFB59581AF1D0618C86E66B68B758A5A91750F3411DFB742D")
  expect (String.ofList (← (sha2.get .sha512).hash (← stringToBytes (utf8 "jad"))).toHex ==
    "D490D8705C47CC9E57E2388362CE1495474E0047709BF4B1F169A9FF9C0E594BB4EC8245E3374DEAFB59581AF1D0618C86E66B68B758A5A91750F3411DFB742D")
  expect (String.ofList (← (sha2.get .sha512).hashStr (utf8 "")).toHex ==
    "CF83E1357EEFB8BDF1542850D66D8007D620E4050B5715DC83F4A921D36CE9CE47D0D13C5D85F2B0FF8318D2877EEC2F63B931BD47417A81A538327AF927DA3E")
  expect (String.ofList (← (sha2.get .sha512).hash (← stringToBytes (utf8 ""))).toHex ==
    "CF83E1357EEFB8BDF1542850D66D8007D620E4050B5715DC83F4A921D36CE9CE47D0D13C5D85F2B0FF8318D2877EEC2F63B931BD47417A81A538327AF927DA3E")
  expect (String.ofList (← (sha2.get .sha512).hashStr (utf8 "z")).toHex ==
    "5AE625665F3E0BD0A065ED07A41989E4025B79D13930A2A8C57D6B4325226707D956A082D1E91B4D96A793562DF98FD03C9DCF743C9C7B4E3055D4F9F09BA015")
  expect (String.ofList (← (sha2.get .sha512).hash (← stringToBytes (utf8 "z"))).toHex ==
    "5AE625665F3E0BD0A065ED07A41989E4025B79D13930A2A8C57D6B4325226707D956A082D1E91B4D96A793562DF98FD03C9DCF743C9C7B4E3055D4F9F09BA015")
  expect (String.ofList (← (sha2.get .sha512).hashStr (utf8 "opjwdofiasasdf")).toHex ==
    "0F684AEC0C7AAEA79AA6B9473E8E667FE53FDA8969281DB1C69D1A018BF82665850BC5E5F8103A09F4F4FD71E419E2C4E696AF02F9C2205FD8C87CE4C0C5E066")
  expect (String.ofList (← (sha2.get .sha512).hash (← stringToBytes (utf8 "opjwdofiasasdf"))).toHex ==
    "0F684AEC0C7AAEA79AA6B9473E8E667FE53FDA8969281DB1C69D1A018BF82665850BC5E5F8103A09F4F4FD71E419E2C4E696AF02F9C2205FD8C87CE4C0C5E066")
  expect (String.ofList (← (sha2.get .sha512).hashStr (utf8 "iou32894e934zh83")).toHex ==
    "15B6FF3DBD04491ECF0FAB91E4FDE72204575DBC451142222DD66673B998D14F9F6CF5D34EA8F2575677593C2342CCB98F350E6581D4A92FF2903E27AFC92A79")
  expect (String.ofList (← (sha2.get .sha512).hash (← stringToBytes (utf8 "iou32894e934zh83"))).toHex ==
    "15B6FF3DBD04491ECF0FAB91E4FDE72204575DBC451142222DD66673B998D14F9F6CF5D34EA8F2575677593C2342CCB98F350E6581D4A92FF2903E27AFC92A79")
  expect (String.ofList (← (sha2.get .sha512).hashStr (utf8 "öül34.ö23-42,.34,-23.4m23oi4z239o4hz239847z2")).toHex ==
    "B499A6CA760F77F7D9C54524E9AEAA1B0DC7527F924171D482DC657D504A3D6061F1706BD14F51CDB804B69433C377E74CFE168FF0792416F5845A5E5CD0617A")
  expect (String.ofList (← (sha2.get .sha512).hash (← stringToBytes (utf8 "öül34.ö23-42,.34,-23.4m23oi4z239o4hz239847z2"))).toHex ==
    "B499A6CA760F77F7D9C54524E9AEAA1B0DC7527F924171D482DC657D504A3D6061F1706BD14F51CDB804B69433C377E74CFE168FF0792416F5845A5E5CD0617A")
  expect (String.ofList (← (sha2.get .sha512).hashStr (utf8 "asoizdfh8790qazf9up984u89auwrfsaf fjas pflsa .,4nmrt4")).toHex ==
    "26397ADE76D807563FB434CEC79150070199E6FF57C7F45EA765E11DAAD5C93F688FAA94A42DA8995B45E5B3F9C491AD3E10A435F56F4D2072FFD57211706531")
  expect (String.ofList (← (sha2.get .sha512).hash (← stringToBytes (utf8 "asoizdfh8790qazf9up984u89auwrfsaf fjas pflsa .,4nmrt4"))).toHex ==
    "26397ADE76D807563FB434CEC79150070199E6FF57C7F45EA765E11DAAD5C93F688FAA94A42DA8995B45E5B3F9C491AD3E10A435F56F4D2072FFD57211706531")

example : sha512_exact = .ok () := by decide +kernel

/-- the text of a result, `returnValue().toHex()` in /repo/tests/pwfunc_unittest.cpp l.384-403 -/
def hexOf (r : Res (Out Bytes)) : Option String :=
  match r with
  | .ok (.success b) => some (String.ofList b.toHex)
  | _ => none

/-- /repo/tests/pwfunc_unittest.cpp l.352-406; without arguments the numbers start at 1, the factors are 1 and the salt is empty -/
def pwfunc_correctness : Res Unit := do
  let password := ascii "Password"
  let passwordbytes ← stringToBytes password
  expect (hexOf (PwFunc.chainhashStr (sha2.get .sha256) password 3 0 fun _ => 0) ==
    some "7BE274414BC74DD332D5A0FAFC94E5A1DA20D091553260A2C1790A82529380F6")
  expect (hexOf (PwFunc.chainhashConstStr (sha2.get .sha256) password 3 [] 0 fun _ => 0) ==
    some "7BE274414BC74DD332D5A0FAFC94E5A1DA20D091553260A2C1790A82529380F6")
  expect (hexOf (PwFunc.chainhashConstStr (sha2.get .sha256) password 3 (ascii "salt") 0 fun _ => 0) ==
    some "039AB013C15E3AB761494D988A3E9298B4D00DAC7CCADE1F87A790676B7DFDE0")
  expect (hexOf (PwFunc.chainhashCountStr (sha2.get .sha256) password 3 1 0 fun _ => 0) ==
    some "730054A5D0584622D3D11C33FCD351D09A7E216E6206BC0FCB027457EC93C822")
  expect (hexOf (PwFunc.chainhashCountStr (sha2.get .sha256) password 3 100 0 fun _ => 0) ==
    some "9D2013058D1D46BA1FFC9951A884D1E015A3AA6CBB6296505ED357890E187A2B")
  expect (hexOf (PwFunc.chainhashConstCountStr (sha2.get .sha256) password 3 1 [] 0 fun _ => 0) ==
    some "730054A5D0584622D3D11C33FCD351D09A7E216E6206BC0FCB027457EC93C822")
  expect (hexOf (PwFunc.chainhashConstCountStr (sha2.get .sha256) password 3 100 (ascii "salt") 0 fun _ => 0) ==
    some "93C329AA4A97175B6B28A38348991AD4D5F96A99AABE95C932C034C7F6AD1AD9")
  expect (hexOf (PwFunc.chainhashQuadStr (sha2.get .sha256) password 3 1 1 1 1 0 fun _ => 0) ==
    some "3E767758357A8F0B82B046AE08A4A60D29BC27BA04F902D33AF8EB392C1AEAE4")
  expect (hexOf (PwFunc.chainhashQuadStr (sha2.get .sha256) password 3 90 5 8 3 0 fun _ => 0) ==
    some "89FD7F1A7D50F2FB881D8F97E88A407B9F029B900262237D0B6CCDA0C071F16E")
  expect (hexOf (PwFunc.chainhashBytes (sha2.get .sha256) passwordbytes 3 0 fun _ => 0) ==
    some "7BE274414BC74DD332D5A0FAFC94E5A1DA20D091553260A2C1790A82529380F6")
  expect (hexOf (PwFunc.chainhashConstBytes (sha2.get .sha256) passwordbytes 3 [] 0 fun _ => 0) ==
    some "7BE274414BC74DD332D5A0FAFC94E5A1DA20D091553260A2C1790A82529380F6")
  expect (hexOf (PwFunc.chainhashConstBytes (sha2.get .sha256) passwordbytes 3 (ascii "salt") 0 fun _ => 0) ==
    some "039AB013C15E3AB761494D988A3E9298B4D00DAC7CCADE1F87A790676B7DFDE0")
  expect (hexOf (PwFunc.chainhashCountBytes (sha2.get .sha256) passwordbytes 3 1 0 fun _ => 0) ==
    some "730054A5D0584622D3D11C33FCD351D09A7E216E6206BC0FCB027457EC93C822")
  expect (hexOf (PwFunc.chainhashCountBytes (sha2.get .sha256) passwordbytes 3 100 0 fun _ => 0) ==
    some "9D2013058D1D46BA1FFC9951A884D1E015A3AA6CBB6296505ED357890E187A2B")
  expect (hexOf (PwFunc.chainhashConstCountBytes (sha2.get .sha256) passwordbytes 3 1 [] 0 fun _ => 0) ==
    some "730054A5D0584622D3D11C33FCD351D09A7E216E6206BC0FCB027457EC93C822")
  expect (hexOf (PwFunc.chainhashConstCountBytes (sha2.get .sha256) passwordbytes 3 100 (ascii "salt") 0 fun _ => 0) ==
    some "93C329AA4A97175B6B28A38348991AD4D5F96A99AABE95C932C034C7F6AD1AD9")
  expect (hexOf (PwFunc.chainhashQuadBytes (sha2.get .sha256) passwordbytes 3 1 1 1 1 0 fun _ => 0) ==
    some "3E767758357A8F0B82B046AE08A4A60D29BC27BA04F902D33AF8EB392C1AEAE4")
  expect (hexOf (PwFunc.chainhashQuadBytes (sha2.get .sha256) passwordbytes 3 90 5 8 3 0 fun _ => 0) ==
    some "89FD7F1A7D50F2FB881D8F97E88A407B9F029B900262237D0B6CCDA0C071F16E")

example : pwfunc_correctness = .ok () := by decide +kernel

/-- /repo/tests/pwfunc_unittest.cpp l.37-94 -/
def pwfunc_passwordvalid : Res Unit := do
  expect (isPasswordValid (ascii "testtes") == .tooShort)
  expect (isPasswordValid [] == .tooShort)
  expect (isPasswordValid (ascii "1234567") == .tooShort)
  expect ((List.range 255).all fun n =>
    let c := UInt8.ofNat n
    let r : PwCheck := if validPassCharset.contains c then .valid else .charInvalid c
    isPasswordValid (ascii "testtes" ++ [c]) == r && isPasswordValid (c :: ascii "testtes") == r &&
      isPasswordValid (ascii "tes" ++ c :: ascii "test") == r)

example : pwfunc_passwordvalid = .ok () := by decide +kernel

/-- /repo/tests/timer_unittest.cpp l.18-46, the answers of each call in turn (`none`: no throw) -/
def timer_throws : Res Unit := do
  let refused (cs : List TimerCall) : List Bool := (TimerCall.runAll cs Timer.new).1.map fun
    | .exn e => catches .logicError e
    | _ => false
  expect (refused [.start 0] == [false])
  expect (refused [.stop 0] == [true])
  expect (refused [.record 0] == [true])
  expect (refused [.peek 0] == [true])
  expect (refused [.average] == [true])
  expect (refused [.time] == [true])
  expect (refused [.laps] == [true])
  expect (refused [.start 0, .start 1, .record 2, .peek 3, .average, .time, .laps, .stop 4] ==
    [false, true, false, false, true, true, true, false])
  expect (refused [.start 0, .stop 1, .stop 2, .record 3, .peek 4, .average, .time, .laps, .start 5] ==
    [false, false, true, true, true, false, false, false, false])

example : timer_throws = .ok () := by decide +kernel

/-- /repo/tests/timer_unittest.cpp l.48-77, with a clock that shows exactly the waiting times; the test allows 2 ms of difference
for the whole time, 339 is what the rounding of the average leaves of 340 -/
def timer_behaviour : Res Unit := do
  let ms (n : Nat) := 1000000 * n
  expect ((TimerCall.runAll [.start (ms 0), .peek (ms 100), .record (ms 200), .record (ms 300), .peek (ms 310), .stop (ms 340),
      .laps, .time, .average] Timer.new).1 ==
    [.ok none, .ok (some 100), .ok (some 200), .ok (some 100), .ok (some 10), .ok none, .ok (some 3), .ok (some 339),
     .ok (some 113)])

example : timer_behaviour = .ok () := by decide +kernel

/-- /repo/tests/format_unittest.cpp l.36-76 -/
def format_getNameLenList : Res Unit := do
  let nl (m : CHMode) : List (String × Nat) := m.nameLens.map fun x => (x.name, x.len)
  expect (nl .normal == [])
  expect (nl .constSalt == [("S", 0)])
  expect (nl .count == [("SN", 8)])
  expect (nl .constCount == [("SN", 8), ("S", 0)])
  expect (nl .quad == [("SN", 8), ("A", 8), ("B", 8), ("C", 8)])

example : format_getNameLenList = .ok () := by decide +kernel

/-- /repo/tests/dataheader_unittest.cpp l.12-37 -/
def dataheader_constructor : Res Unit := do
  expect ((← DataHeader.new 1 (rnd 1)).hashSize == 32)
  expect ((← DataHeader.new 2 (rnd 1)).hashSize == 48)
  expect ((← DataHeader.new 3 (rnd 1)).hashSize == 64)
  throws .invalidArgument (do let _ ← DataHeader.new 0 (rnd 1); pure ())
  throws .invalidArgument (do let _ ← DataHeader.new 4 (rnd 1); pure ())
  throws .invalidArgument (do let _ ← DataHeader.new 255 (rnd 1); pure ())

example : dataheader_constructor = .ok () := by decide +kernel

/-- /repo/tests/dataheader_unittest.cpp l.39-67 -/
def dataheader_setFileDataMode : Res Unit := do
  let d ← DataHeader.new 1 (rnd 1)
  let _ ← d.setFileDataMode 1
  throws .invalidArgument (do let _ ← d.setFileDataMode 0; pure ())
  throws .invalidArgument (do let _ ← d.setFileDataMode 2; pure ())
  throws .invalidArgument (do let _ ← d.setFileDataMode 255; pure ())

example : dataheader_setFileDataMode = .ok () := by decide +kernel

/-- /repo/tests/dataheader_unittest.cpp l.69-157, for one hash mode and one pair of chain-hash modes -/
def dataheader_setChainHash (hm : Byte) (m : CHMode) (iters : UInt64) : Res Unit := do
  let chd ← (ChainHashData.new m).generateRandomData (rnd 3)
  expect (chd.isCompletedFormat m)
  let ch := ChainHash.make m iters (some chd)
  let mut dh ← DataHeader.new hm (rnd 1)
  let mut dh2 ← DataHeader.new hm (rnd 2)
  let hsb ← (Bytes.empty dh.hashSize).fillrandom (rnd 4)
  dh ← dh.setChainHash1 ch
  throws .logicError (do let _ ← dh.getDataHeaderParts; pure ())
  expect ((← dh.getHeaderLength) == 0)
  throws .logicError (do let _ ← dh.getHeaderBytes; pure ())
  throws .logicError (do let _ ← dh.calcHeaderBytes! sha2 hsb fun _ => 0; pure ())
  dh2 ← dh2.setChainHash2 ch
  throws .logicError (do let _ ← dh2.getDataHeaderParts; pure ())
  expect ((← dh2.getHeaderLength) == 0)
  throws .logicError (do let _ ← dh2.getHeaderBytes; pure ())
  throws .logicError (do let _ ← dh2.calcHeaderBytes! sha2 hsb fun _ => 0; pure ())
  let _ ← dh.setChainHash2 ch
  dh2 ← dh2.setChainHash1 ch
  throws .logicError (do let _ ← dh2.getDataHeaderParts; pure ())
  expect ((← dh2.getHeaderLength) == 40 + 2 * dh2.hashSize + 2 * chd.getLen)
  throws .logicError (do let _ ← dh2.getHeaderBytes; pure ())
  throws .logicError (do let _ ← dh2.calcHeaderBytes! sha2 hsb fun _ => 0; pure ())

example : ∀ hm ∈ [1, 2, 3], ∀ m ∈ [CHMode.normal, .constSalt, .count, .constCount, .quad],
    dataheader_setChainHash hm m 1234567 = .ok () := by decide +kernel

/-- /repo/tests/dataheader_unittest.cpp l.159-189 -/
def dataheader_setValidPasswordHashBytes (hm : Byte) : Res Unit := do
  let dh0 ← DataHeader.new hm (rnd 1)
  let tmp ← (Bytes.empty dh0.hashSize).fillrandom (rnd 4)
  let dh ← dh0.setValidPasswordHashBytes tmp
  throws .logicError (do let _ ← dh.getDataHeaderParts; pure ())
  expect ((← dh.getHeaderLength) == 0)
  throws .logicError (do let _ ← dh.getHeaderBytes; pure ())
  throws .logicError (do let _ ← dh.calcHeaderBytes! sha2 tmp fun _ => 0; pure ())
  expect ((List.range 512).all fun i => i == dh0.hashSize ||
    match dh0.setValidPasswordHashBytes (Bytes.full (List.replicate i 7)) with
    | .exn .invalidArgument => true
    | _ => false)

example : ∀ hm ∈ [1, 2, 3], dataheader_setValidPasswordHashBytes hm = .ok () := by decide +kernel

/-- /repo/tests/dataheader_unittest.cpp l.191-346, for one hash mode, one pair of chain-hash modes and small iteration numbers -/
def dataheader_calcHeaderBytes (hm : HMode) (m1 m2 : CHMode) (iters1 iters2 : UInt64) : Res Unit := do
  let mut dh ← DataHeader.new hm.toByte (rnd 1)
  let size := hm.size
  let chd1 ← (ChainHashData.new m1).generateRandomData (rnd 2)
  let chd2 ← (ChainHashData.new m2).generateRandomData (rnd 3)
  let ch1 := ChainHash.make m1 iters1 (some chd1)
  let ch2 := ChainHash.make m2 iters2 (some chd2)
  let hsb ← (Bytes.empty size).fillrandom (rnd 4)
  let clk : Nat → Nat := fun _ => 0
  throws .logicError (do let _ ← dh.calcHeaderBytes! sha2 hsb clk; pure ())
  dh ← dh.setFileDataMode 1
  throws .logicError (do let _ ← dh.calcHeaderBytes! sha2 hsb clk; pure ())
  dh ← dh.setChainHash1 ch1
  throws .logicError (do let _ ← dh.calcHeaderBytes! sha2 hsb clk; pure ())
  dh ← dh.setChainHash2 ch2
  throws .logicError (do let _ ← dh.calcHeaderBytes! sha2 hsb clk; pure ())
  let phash ← DataHeader.returnValue (← ChainHashModes.performStr ch1 (sha2.get hm) (ascii "random password!") 0 clk)
  let pval ← DataHeader.returnValue (← ChainHashModes.performBytes ch2 (sha2.get hm) phash 0 clk)
  let dh2 ← dh.setValidPasswordHashBytes (← (Bytes.empty size).fillrandom (rnd 5))
  throws .logicError (do let _ ← dh2.calcHeaderBytes! sha2 (← (Bytes.empty size).fillrandom (rnd 6)) clk; pure ())
  let dh3 ← dh.setValidPasswordHashBytes pval
  throws .logicError (do let _ ← dh3.calcHeaderBytes! sha2 (← (Bytes.empty size).fillrandom (rnd 7)) clk; pure ())
  let dh4 ← dh.setValidPasswordHashBytes (← (Bytes.empty size).fillrandom (rnd 8))
  throws .logicError (do let _ ← dh4.calcHeaderBytes! sha2 phash clk; pure ())
  dh ← dh.setValidPasswordHashBytes pval
  throws .logicError (do let _ ← dh.calcHeaderBytes! sha2 phash clk; pure ())
  dh ← dh.setFileSize 100000
  dh ← dh.calcHeaderBytes! sha2 phash clk
  throws .logicError (do let _ ← dh2.getHeaderBytes; pure ())
  throws .logicError (do let _ ← dh3.getHeaderBytes; pure ())
  throws .logicError (do let _ ← dh4.getHeaderBytes; pure ())
  let b ← dh.getHeaderBytes
  let dp ← dh.getDataHeaderParts
  let n1 := chd1.getLen
  let n2 := chd2.getLen
  let len := 40 + 2 * size + n1 + n2
  expect ((← dh.getHeaderLength) == len && (← dh2.getHeaderLength) == len && (← dh3.getHeaderLength) == len &&
    (← dh4.getHeaderLength) == len)
  expect (dp.hashMode == some hm && dp.fileMode == some 1)
  expect ((← dp.ch1.getMode) == m1 && (← dp.ch2.getMode) == m2)
  expect ((← dp.ch1.getIters) == iters1 && (← dp.ch2.getIters) == iters2)
  expect ((← ChainHashData.eq chd1 (← dp.ch1.getData)) && (← ChainHashData.eq chd2 (← dp.ch2.getData)))
  expect (Bytes.beq pval (← DataHeaderParts.get dp.validator))
  let at8 (i : Nat) : Res UInt64 := do (← b.copySubBytes i (i + 8)).toLong
  let at1 (i : Nat) : Byte := b.data.getD i 0
  expect (b.len == len)
  expect ((← at8 0) == 100000 && (← at8 8).toNat == b.len)
  expect (at1 16 == 1 && at1 17 == hm.toByte && at1 18 == 0 && at1 19 == m1.toByte)
  expect ((← at8 20) == iters1 && (at1 28).toNat == n1)
  expect (Bytes.beq (← chd1.getDataBlock) (← b.copySubBytes 29 (29 + n1)))
  expect (at1 (29 + n1) == m2.toByte && (← at8 (30 + n1)) == iters2 && (at1 (38 + n1)).toNat == n2)
  expect (Bytes.beq (← chd2.getDataBlock) (← b.copySubBytes (39 + n1) (39 + n1 + n2)))
  expect (Bytes.beq pval (← b.copySubBytes (39 + n1 + n2) (39 + n1 + n2 + size)))
  expect (Bytes.beq (← DataHeaderParts.get dp.encSalt) (← b.copySubBytes (39 + n1 + n2 + size) (39 + n1 + n2 + 2 * size)))
  expect (at1 (39 + n1 + n2 + 2 * size) == 0)
  let dh6 ← (← (← DataHeader.new hm.toByte (rnd 1)).setChainHash1 ch1).setChainHash2 ch2
  let dh5 ← dh6.setFileDataMode 1
  throws .logicError (do let _ ← dh5.calcHeaderBytes! sha2 hsb clk; pure ())
  let dh6 ← dh6.setValidPasswordHashBytes pval
  throws .logicError (do let _ ← dh6.calcHeaderBytes! sha2 phash clk; pure ())

example : dataheader_calcHeaderBytes .sha256 .quad .constCount 3 2 = .ok () := by decide +kernel
example : dataheader_calcHeaderBytes .sha384 .normal .count 2 3 = .ok () := by decide +kernel
example : dataheader_calcHeaderBytes .sha512 .constSalt .normal 2 1 = .ok () := by decide +kernel

/-- /repo/tests/bytes_unittest.cpp l.8-20 -/
def bytesClass_constructor : Res Unit := do
  let mut b1 ← Bytes.new 10
  expect (0 == b1.len)
  expect (10 == b1.cap)
  let mut b2 ← Bytes.new 0
  expect (0 == b2.len)
  expect (0 == b2.cap)
  let mut b3 ← Bytes.new 1000
  expect (0 == b3.len)
  expect (1000 == b3.cap)
  throws .invalidArgument (do let _ ← Bytes.new (-1); pure ())

example : bytesClass_constructor = .ok () := by decide +kernel

/-- /repo/tests/bytes_unittest.cpp l.22-87 -/
def bytesClass_fillrandom : Res Unit := do
  let mut b1 ← Bytes.new 10
  b1 ← b1.fillrandom (rnd 1)
  expect (10 == b1.len)
  expect (10 == b1.cap)
  let mut b2 ← Bytes.new 0
  b2 ← b2.fillrandom (rnd 2)
  expect (0 == b2.len)
  expect (0 == b2.cap)
  let mut b3 ← Bytes.new 1000
  b3 ← b3.fillrandom (rnd 3)
  expect (1000 == b3.len)
  expect (1000 == b3.cap)
  let mut b4 ← Bytes.new 100
  b4 ← b4.addByte 173
  b4 ← b4.fillrandom (rnd 4)
  expect (100 == b4.len)
  expect (100 == b4.cap)
  expect (173 == ((b4.data).getD 0 0).toNat)
  let mut b5 ← Bytes.new 100
  b5 ← b5.addrandom 10 (rnd 5)
  let mut b6 ← Bytes.new 100
  b6 ← b5.copyToBytes b6
  b5 ← b5.fillrandom (rnd 6)
  expect (100 == b5.len)
  expect (100 == b5.cap)
  expect (10 == b6.len)
  expect (100 == b6.cap)
  expect (!(Bytes.beq b5 b6))
  expect (((b5.data).take 10 == (b6.data).take 10))
  let mut b7 ← Bytes.new 100
  b7 ← b7.addrandom 100 (rnd 7)
  let mut b8 ← Bytes.new 100
  b8 ← b7.copyToBytes b8
  b7 ← b7.fillrandom (rnd 8)
  b8 ← b8.fillrandom (rnd 9)
  expect (100 == b7.len)
  expect (100 == b7.cap)
  expect (100 == b8.len)
  expect (100 == b8.cap)
  expect (Bytes.beq b7 b8)
  expect (((b7.data).take 100 == (b8.data).take 100))
  let mut b9 ← Bytes.new 100
  b9 ← b9.fillrandom (rnd 10)
  let mut b10 ← Bytes.new 100
  b10 ← b9.copyToBytes b10
  b9 ← b9.fillrandom (rnd 11)
  expect (100 == b9.len)
  expect (100 == b9.cap)
  expect (100 == b10.len)
  expect (100 == b10.cap)
  expect (Bytes.beq b9 b10)
  expect (((b9.data).take 100 == (b10.data).take 100))
  let _ ← Bytes.new 100
  b4 ← b4.fillrandom (rnd 12)
  let _ ← Bytes.new 100
  b5 ← b5.fillrandom (rnd 13)
  expect (!(Bytes.beq b4 b5))

example : bytesClass_fillrandom = .ok () := by decide +kernel

/-- /repo/tests/bytes_unittest.cpp l.89-170 -/
def bytesClass_addrandom : Res Unit := do
  let mut b1 ← Bytes.new 10
  b1 ← b1.addrandom 10 (rnd 14)
  expect (10 == b1.len)
  expect (10 == b1.cap)
  let mut b2 ← Bytes.new 0
  b2 ← b2.addrandom 0 (rnd 15)
  expect (0 == b2.len)
  expect (0 == b2.cap)
  let mut b3 ← Bytes.new 1000
  b3 ← b3.addrandom 1000 (rnd 16)
  expect (1000 == b3.len)
  expect (1000 == b3.cap)
  let mut b4 ← Bytes.new 100
  b4 ← b4.addrandom 10 (rnd 17)
  expect (10 == b4.len)
  expect (100 == b4.cap)
  let mut b5 ← Bytes.new 100
  b5 ← b5.addrandom 0 (rnd 18)
  expect (0 == b5.len)
  expect (100 == b5.cap)
  let mut b6 ← Bytes.new 100
  b6 ← b6.addrandom 100 (rnd 19)
  let mut b7 ← Bytes.new 100
  b7 ← b7.fillrandom (rnd 20)
  expect (!(Bytes.beq b6 b7))
  let mut b8 ← Bytes.new 100
  b8 ← b8.addrandom 10 (rnd 21)
  let mut b9 ← Bytes.new 100
  b9 ← b9.addrandom 10 (rnd 22)
  expect (!(Bytes.beq b8 b9))
  let mut b10 ← Bytes.new 100
  b10 ← b10.addrandom 10 (rnd 23)
  let mut b11 ← Bytes.new 100
  b11 ← b10.copyToBytes b11
  expect (Bytes.beq b10 b11)
  b10 ← b10.addrandom 10 (rnd 24)
  expect (!(Bytes.beq b10 b11))
  b11 ← b11.addrandom 10 (rnd 25)
  expect (!(Bytes.beq b10 b11))
  let mut b12 ← Bytes.new 100
  b12 ← b12.fillrandom (rnd 26)
  let mut b13 ← Bytes.new 100
  b13 ← b12.copyToBytes b13
  expect (Bytes.beq b12 b13)
  throws .lengthError (do let _ ← b12.addrandom 10 (rnd 27); pure ())
  throws .lengthError (do let _ ← b13.addrandom 10 (rnd 28); pure ())
  let mut b14 ← Bytes.new 100
  b14 ← b14.addrandom 100 (rnd 29)
  let mut b15 ← Bytes.new 100
  b15 ← b14.copyToBytes b15
  expect (Bytes.beq b14 b15)
  throws .lengthError (do let _ ← b14.addrandom 10 (rnd 30); pure ())
  throws .lengthError (do let _ ← b15.addrandom 10 (rnd 31); pure ())
  let mut b16 ← Bytes.new 100
  throws .lengthError (do let _ ← b16.addrandom 101 (rnd 32); pure ())
  let mut b17 ← Bytes.new 100
  throws .lengthError (do let _ ← b17.addrandom (-1) (rnd 33); pure ())
  let mut b18 ← Bytes.new 100
  b18 ← b18.addrandom 99 (rnd 34)
  throws .lengthError (do let _ ← b18.addrandom 2 (rnd 35); pure ())
  let mut b19 ← Bytes.new 100
  b19 ← b19.addrandom 100 (rnd 36)
  throws .lengthError (do let _ ← b19.addrandom 1 (rnd 37); pure ())
  let mut b20 ← Bytes.new 100
  b20 ← b20.addrandom 99 (rnd 38)
  b20 ← b20.addrandom 1 (rnd 39)

example : bytesClass_addrandom = .ok () := by decide +kernel

/-- /repo/tests/bytes_unittest.cpp l.431-453 -/
def bytesClass_getLen : Res Unit := do
  let mut b1 ← Bytes.new 10
  expect (0 == b1.len)
  b1 ← b1.addByte 173
  expect (1 == b1.len)
  b1 ← b1.addrandom 5 (rnd 40)
  expect (6 == b1.len)
  b1 ← b1.addByte 173
  expect (7 == b1.len)
  let mut b2 ← Bytes.new 0
  expect (0 == b2.len)
  let mut b3 ← Bytes.new 10
  let mut b4 ← Bytes.new 10
  b3 ← b3.addrandom 6 (rnd 41)
  b4 ← b3.copyToBytes b4
  expect (6 == b3.len)
  expect (6 == b4.len)
  b3 ← b3.addrandom 4 (rnd 42)
  expect (10 == b3.len)
  expect (6 == b4.len)

example : bytesClass_getLen = .ok () := by decide +kernel

/-- /repo/tests/bytes_unittest.cpp l.455-484 -/
def bytesClass_getMaxLen : Res Unit := do
  let mut b1 ← Bytes.new 10
  expect (10 == b1.cap)
  b1 ← b1.addByte 173
  expect (10 == b1.cap)
  b1 ← b1.addrandom 5 (rnd 43)
  expect (10 == b1.cap)
  b1 ← b1.addByte 173
  expect (10 == b1.cap)
  let mut b2 ← Bytes.new 0
  expect (0 == b2.cap)
  let mut b3 ← Bytes.new 10
  let mut b4 ← Bytes.new 10
  b3 ← b3.addrandom 6 (rnd 44)
  b4 ← b3.copyToBytes b4
  expect (10 == b3.cap)
  expect (10 == b4.cap)
  b3 ← b3.addrandom 4 (rnd 45)
  expect (10 == b3.cap)
  expect (10 == b4.cap)
  let mut b5 ← Bytes.new 11
  b5 ← b5.addByte 173
  let mut b6 ← Bytes.new 11
  b6 ← b5.copyToBytes b6
  expect (11 == b5.cap)
  expect (11 == b6.cap)

example : bytesClass_getMaxLen = .ok () := by decide +kernel

/-- /repo/tests/bytes_unittest.cpp l.531-601 -/
def bytesClass_copyToBytes : Res Unit := do
  let mut b1 ← Bytes.new 10
  let mut b2 ← Bytes.new 10
  let bytes1 : List Byte := [0, 1, 2, 3, 4, 5, 6, 7, 8, 9]
  b1 ← b1.setBytes (bytes1.take 10)
  b2 ← b1.copyToBytes b2
  expect (((b1.data).take 10 == (b2.data).take 10))
  expect (((bytes1).take 10 == (b2.data).take 10))
  expect (b1.len == b2.len)
  expect (10 == b2.len)
  expect (b1.cap == b2.cap)
  expect (Bytes.beq b1 b2)
  let mut b3 ← Bytes.new 10
  b3 ← b3.fillrandom (rnd 46)
  b2 ← b3.copyToBytes b2
  expect (((b3.data).take 10 == (b2.data).take 10))
  expect (b3.len == b2.len)
  expect (10 == b2.len)
  expect (b3.cap == b2.cap)
  expect (Bytes.beq b3 b2)
  expect (!(Bytes.beq b1 b2))
  let mut b4 ← Bytes.new 10
  b4 ← b4.addrandom 5 (rnd 47)
  b2 ← b4.copyToBytes b2
  expect (((b4.data).take 5 == (b2.data).take 5))
  expect (b4.len == b2.len)
  expect (5 == b2.len)
  expect (b4.cap == b2.cap)
  expect (Bytes.beq b4 b2)
  expect (!(Bytes.beq b3 b2))
  let mut b5 ← Bytes.new 5
  b5 ← b5.addByte 173
  b2 ← b5.copyToBytes b2
  expect (((b5.data).take 1 == (b2.data).take 1))
  expect (b5.len == b2.len)
  expect (1 == b2.len)
  expect (10 == b2.cap)
  expect (5 == b5.cap)
  expect (Bytes.beq b5 b2)
  expect (!(Bytes.beq b4 b2))
  let mut b6 ← Bytes.new 0
  b2 ← b6.copyToBytes b2
  expect (((b6.data).take 0 == (b2.data).take 0))
  expect (b6.len == b2.len)
  expect (0 == b2.len)
  expect (0 == b6.cap)
  expect (10 == b2.cap)
  expect (Bytes.beq b6 b2)
  expect (!(Bytes.beq b5 b2))
  let mut b7 ← Bytes.new 11
  b7 ← b7.fillrandom (rnd 48)
  throws .lengthError (do let _ ← b7.copyToBytes b2; pure ())
  let mut b8 ← Bytes.new 2
  b8 ← b8.fillrandom (rnd 49)
  b2 ← b8.copyToBytes b2
  let mut b9 ← Bytes.new 11
  b9 ← b9.addrandom 10 (rnd 50)
  let mut b10 ← Bytes.new 10
  b10 ← b10.addrandom 5 (rnd 51)
  b10 ← b9.copyToBytes b10
  let mut b11 ← Bytes.new 11
  b11 ← b11.addrandom 5 (rnd 52)
  b11 ← b11.addrandom 6 (rnd 53)
  throws .lengthError (do let _ ← b11.copyToBytes b2; pure ())

example : bytesClass_copyToBytes = .ok () := by decide +kernel

/-- /repo/tests/bytes_unittest.cpp l.886-961 -/
def bytesClass_addcopyToBytes : Res Unit := do
  let mut b1 ← Bytes.new 10
  let mut b2 ← Bytes.new 10
  let bytes1 : List Byte := [0, 1, 2, 3, 4, 5, 6, 7, 8, 9]
  b1 ← b1.setBytes (bytes1.take 10)
  b2 ← b1.addcopyToBytes b2
  expect (((b1.data).take 10 == (b2.data).take 10))
  expect (((bytes1).take 10 == (b2.data).take 10))
  expect (b1.len == b2.len)
  expect (10 == b2.len)
  expect (b1.cap == b2.cap)
  expect (Bytes.beq b1 b2)
  let mut b3 ← Bytes.new 10
  let mut b4 ← Bytes.new 10
  b3 ← b3.fillrandom (rnd 66)
  b4 ← b3.addcopyToBytes b4
  expect (((b3.data).take 10 == (b4.data).take 10))
  expect (b3.len == b4.len)
  expect (10 == b4.len)
  expect (b3.cap == b4.cap)
  expect (Bytes.beq b3 b4)
  let mut b5 ← Bytes.new 10
  let mut b6 ← Bytes.new 10
  b5 ← b5.setBytes (bytes1.take 5)
  b6 ← b5.addcopyToBytes b6
  expect (((b5.data).take 5 == (b6.data).take 5))
  expect (b5.len == b6.len)
  expect (5 == b6.len)
  expect (b5.cap == b6.cap)
  expect (Bytes.beq b5 b6)
  let mut b7 ← Bytes.new 10
  let mut b8 ← Bytes.new 10
  b7 ← b7.setBytes (bytes1.take 5)
  b8 ← b8.setBytes (((bytes1).drop 5).take 5)
  b7 ← b8.addcopyToBytes b7
  expect (((b8.data).take 5 == ((b7.data).drop 5).take 5))
  expect (((bytes1).take 10 == (b7.data).take 10))
  expect (10 == b7.len)
  expect (5 == b8.len)
  expect (10 == b7.cap)
  expect (10 == b8.cap)
  expect (!(Bytes.beq b7 b8))
  let mut b9 ← Bytes.new 10
  let mut b10 ← Bytes.new 10
  b10 ← b9.addcopyToBytes b10
  expect (((b9.data).take 0 == (b10.data).take 0))
  expect (b9.len == b10.len)
  expect (0 == b10.len)
  expect (b9.cap == b10.cap)
  expect (Bytes.beq b9 b10)
  let mut b11 ← Bytes.new 11
  let mut b12 ← Bytes.new 10
  b11 ← b11.fillrandom (rnd 67)
  throws .lengthError (do let _ ← b11.addcopyToBytes b12; pure ())
  let mut b13 ← Bytes.new 2
  let mut b14 ← Bytes.new 10
  b13 ← b13.fillrandom (rnd 68)
  b14 ← b13.addcopyToBytes b14
  let mut b15 ← Bytes.new 11
  let mut b16 ← Bytes.new 10
  b15 ← b15.addrandom 10 (rnd 69)
  b16 ← b15.addcopyToBytes b16
  let mut b17 ← Bytes.new 11
  let mut b18 ← Bytes.new 10
  b17 ← b17.addrandom 5 (rnd 70)
  b18 ← b17.addcopyToBytes b18
  b18 ← b17.addcopyToBytes b18
  throws .lengthError (do let _ ← b17.addcopyToBytes b18; pure ())
  let _ ← Bytes.new 11

example : bytesClass_addcopyToBytes = .ok () := by decide +kernel

/-- /repo/tests/bytes_unittest.cpp l.963-1034 -/
def bytesClass_copySubBytes : Res Unit := do
  let mut b1 ← Bytes.new 10
  let bytes1 : List Byte := [0, 1, 2, 3, 4, 5, 6, 7, 8, 9]
  b1 ← b1.setBytes (bytes1.take 10)
  let mut b2 := (← b1.copySubBytes 2 5)
  expect ((((bytes1).drop 2).take 3 == (b2.data).take 3))
  expect (3 == b2.len)
  expect (3 == b2.cap)
  expect (131844 == (← b2.toLong).toNat)
  let mut b3 ← Bytes.new 10
  b3 ← b3.fillrandom (rnd 71)
  let mut b4 := (← b3.copySubBytes 0 10)
  expect (((b3.data).take 10 == (b4.data).take 10))
  expect (10 == b4.len)
  expect (10 == b4.cap)
  expect (Bytes.beq b3 b4)
  let mut b5 ← Bytes.new 10
  b5 ← b5.fillrandom (rnd 72)
  let mut b6 := (← b5.copySubBytes 0 5)
  expect (((b5.data).take 5 == (b6.data).take 5))
  expect (5 == b6.len)
  expect (5 == b6.cap)
  let mut b7 ← Bytes.new 10
  b7 ← b7.fillrandom (rnd 73)
  let mut b8 := (← b7.copySubBytes 5 10)
  expect ((((b7.data).drop 5).take 5 == (b8.data).take 5))
  expect (5 == b8.len)
  expect (5 == b8.cap)
  let mut b9 ← Bytes.new 10
  b9 ← b9.fillrandom (rnd 74)
  let mut b10 := (← b9.copySubBytes 5 5)
  expect ((((b9.data).drop 5).take 0 == (b10.data).take 0))
  expect (0 == b10.len)
  expect (0 == b10.cap)
  expect b10.isEmpty
  let mut b11 ← Bytes.new 10
  b11 ← b11.fillrandom (rnd 75)
  let mut b12 := (← b11.copySubBytes 0 0)
  expect (((b11.data).take 0 == (b12.data).take 0))
  expect (0 == b12.len)
  expect (0 == b12.cap)
  expect b12.isEmpty
  let mut b13 ← Bytes.new 10
  b13 ← b13.fillrandom (rnd 76)
  throws .lengthError (do let _ ← b13.copySubBytes 0 11; pure ())
  let mut b14 ← Bytes.new 10
  throws .lengthError (do let _ ← b14.copySubBytes 0 1; pure ())
  let mut b25 ← Bytes.new 10
  b25 ← b25.addByte 173
  throws .lengthError (do let _ ← b25.copySubBytes 1 2; pure ())
  expect (!((← b25.copySubBytes 0 1).isEmpty))
  expect ((← b25.copySubBytes 0 0).isEmpty)
  expect ((← b25.copySubBytes 1 1).isEmpty)
  let mut b15 ← Bytes.new 10
  expect ((← b15.copySubBytes 0 0).isEmpty)
  let mut b16 ← Bytes.new 10
  b16 ← b16.fillrandom (rnd 77)
  throws .invalidArgument (do let _ ← b16.copySubBytes 1 0; pure ())
  let mut b17 ← Bytes.new 10
  b17 ← b17.fillrandom (rnd 78)
  throws .lengthError (do let _ ← b17.copySubBytes 11 11; pure ())
  let mut b18 ← Bytes.new 10
  b18 ← b18.fillrandom (rnd 79)
  throws .invalidArgument (do let _ ← b18.copySubBytes 18446744073709551615 2; pure ())

example : bytesClass_copySubBytes = .ok () := by decide +kernel

/-- /repo/tests/bytes_unittest.cpp l.1087-1126, without its loops -/
def bytesClass_addByte : Res Unit := do
  let mut b1 ← Bytes.new 10
  b1 ← b1.addByte 173
  expect (1 == b1.len)
  expect (10 == b1.cap)
  expect (173 == ((b1.data).getD 0 0).toNat)
  let mut b3 ← Bytes.new 10
  b3 ← b3.addByte 173
  b3 ← b3.addByte 172
  expect (2 == b3.len)
  expect (10 == b3.cap)
  expect (173 == ((b3.data).getD 0 0).toNat)
  expect (172 == ((b3.data).getD 1 0).toNat)
  let _ ← Bytes.new 256
  let mut b6 ← Bytes.new 0
  throws .lengthError (do let _ ← b6.addByte 173; pure ())
  let mut b7 ← Bytes.new 10
  b7 ← b7.addByte 173
  let _ ← Bytes.new 255

example : bytesClass_addByte = .ok () := by decide +kernel

/-- /repo/tests/bytes_unittest.cpp l.1128-1138 -/
def bytesClass_isEmpty : Res Unit := do
  let mut b1 ← Bytes.new 10
  expect b1.isEmpty
  b1 ← b1.addByte 173
  expect (!b1.isEmpty)
  b1 ← b1.fillrandom (rnd 80)
  expect (!b1.isEmpty)
  let mut b2 ← Bytes.new 0
  expect b2.isEmpty

example : bytesClass_isEmpty = .ok () := by decide +kernel

/-- /repo/tests/bytes_unittest.cpp l.1140-1210 -/
def bytesClass_toLong : Res Unit := do
  let mut b0 ← Bytes.new 8
  expect (0 == (← b0.toLong).toNat)
  let mut b1 ← Bytes.new 0
  expect (0 == (← b1.toLong).toNat)
  let mut b2 ← Bytes.new 1
  b2 ← b2.addByte 173
  expect (173 == (← b2.toLong).toNat)
  let mut b3 ← Bytes.new 2
  b3 ← b3.addByte 173
  b3 ← b3.addByte 172
  expect (44460 == (← b3.toLong).toNat)
  let mut b4 ← Bytes.new 3
  b4 ← b4.addByte 173
  b4 ← b4.addByte 172
  b4 ← b4.addByte 171
  expect (11381931 == (← b4.toLong).toNat)
  let mut b5 ← Bytes.new 4
  b5 ← b5.addByte 173
  b5 ← b5.addByte 172
  b5 ← b5.addByte 171
  b5 ← b5.addByte 170
  expect (2913774506 == (← b5.toLong).toNat)
  let mut b6 ← Bytes.new 5
  b6 ← b6.addByte 0
  b6 ← b6.addByte 0
  b6 ← b6.addByte 0
  b6 ← b6.addByte 17
  b6 ← b6.addByte 34
  expect (4386 == (← b6.toLong).toNat)
  let mut b7 ← Bytes.new 6
  b7 ← b7.addByte 69
  b7 ← b7.addByte 0
  b7 ← b7.addByte 0
  b7 ← b7.addByte 0
  b7 ← b7.addByte 17
  b7 ← b7.addByte 34
  expect (75866302320930 == (← b7.toLong).toNat)
  let mut b8 ← Bytes.new 7
  b8 ← b8.addByte 0
  b8 ← b8.addByte 255
  b8 ← b8.addByte 255
  b8 ← b8.addByte 255
  b8 ← b8.addByte 255
  b8 ← b8.addByte 255
  b8 ← b8.addByte 255
  expect (281474976710655 == (← b8.toLong).toNat)
  let mut b9 ← Bytes.new 8
  b9 ← b9.addByte 255
  b9 ← b9.addByte 254
  b9 ← b9.addByte 253
  b9 ← b9.addByte 252
  b9 ← b9.addByte 251
  b9 ← b9.addByte 250
  b9 ← b9.addByte 249
  b9 ← b9.addByte 248
  expect (18446460386757245432 == (← b9.toLong).toNat)
  let mut b10 ← Bytes.new 9
  b10 ← b10.fillrandom (rnd 81)
  throws .lengthError (do let _ ← b10.toLong; pure ())
  let mut b11 ← Bytes.new 9
  b11 ← b11.addrandom 8 (rnd 82)
  let _ ← b11.toLong
  let mut b12 ← Bytes.new 10
  b12 ← b12.addrandom 9 (rnd 83)
  throws .lengthError (do let _ ← b12.toLong; pure ())

example : bytesClass_toLong = .ok () := by decide +kernel

/-- /repo/tests/bytes_unittest.cpp l.1212-1263, without its loops -/
def bytesClass_toHex : Res Unit := do
  let mut b1 ← Bytes.new 0
  expect ("" == String.ofList b1.toHex)
  let mut b2 ← Bytes.new 1
  b2 ← b2.addByte 173
  expect ("AD" == String.ofList b2.toHex)
  let mut b3 ← Bytes.new 2
  b3 ← b3.addByte 173
  b3 ← b3.addByte 172
  expect ("ADAC" == String.ofList b3.toHex)
  let mut b4 ← Bytes.new 3
  b4 ← b4.addByte 173
  b4 ← b4.addByte 172
  b4 ← b4.addByte 171
  expect ("ADACAB" == String.ofList b4.toHex)
  let mut b5 ← Bytes.new 4
  b5 ← b5.addByte 173
  b5 ← b5.addByte 172
  b5 ← b5.addByte 171
  b5 ← b5.addByte 170
  expect ("ADACABAA" == String.ofList b5.toHex)
  let mut b6 ← Bytes.new 5
  b6 ← b6.addByte 0
  b6 ← b6.addByte 0
  b6 ← b6.addByte 0
  b6 ← b6.addByte 17
  b6 ← b6.addByte 34
  expect ("0000001122" == String.ofList b6.toHex)
  let mut b7 ← Bytes.new 6
  b7 ← b7.addByte 69
  b7 ← b7.addByte 0
  b7 ← b7.addByte 0
  b7 ← b7.addByte 0
  b7 ← b7.addByte 17
  b7 ← b7.addByte 34
  expect ("450000001122" == String.ofList b7.toHex)
  let mut b8 ← Bytes.new 256
  let hex := String.ofList b8.toHex

example : bytesClass_toHex = .ok () := by decide +kernel

/-- /repo/tests/bytes_unittest.cpp l.1265-1335 -/
def bytesClass_fromLong : Res Unit := do
  let mut b1 := (← Bytes.fromLong 0)
  expect (0 == b1.len)
  expect (8 == b1.cap)
  expect (0 == (← b1.toLong).toNat)
  let mut b2 := (← Bytes.fromLong 173)
  expect (1 == b2.len)
  expect (8 == b2.cap)
  expect (173 == (← b2.toLong).toNat)
  let mut b3 := (← Bytes.fromLong 44460)
  expect (2 == b3.len)
  expect (8 == b3.cap)
  expect (44460 == (← b3.toLong).toNat)
  let mut b4 := (← Bytes.fromLong 11381931)
  expect (3 == b4.len)
  expect (8 == b4.cap)
  expect (11381931 == (← b4.toLong).toNat)
  let mut b5 := (← Bytes.fromLong 11272362)
  expect (3 == b5.len)
  expect (8 == b5.cap)
  expect (11272362 == (← b5.toLong).toNat)
  let mut b6 := (← Bytes.fromLong 4386)
  expect (2 == b6.len)
  expect (8 == b6.cap)
  expect (4386 == (← b6.toLong).toNat)
  let mut b7 := (← Bytes.fromLong 75866302320930)
  expect (6 == b7.len)
  expect (8 == b7.cap)
  expect (75866302320930 == (← b7.toLong).toNat)
  let mut b8 := (← Bytes.fromLong 281474976710655)
  expect (6 == b8.len)
  expect (8 == b8.cap)
  expect (281474976710655 == (← b8.toLong).toNat)
  let mut b9 := (← Bytes.fromLong 18446460386757245432)
  expect (8 == b9.len)
  expect (8 == b9.cap)
  expect (18446460386757245432 == (← b9.toLong).toNat)
  let mut b10 := (← Bytes.fromLong 1152903774172327839)
  expect (8 == b10.len)
  expect (8 == b10.cap)
  expect (1152903774172327839 == (← b10.toLong).toNat)
  let _ ← Bytes.fromLong 18446460386757245432
  let _ ← Bytes.fromLong 1152903774172327839
  let _ ← Bytes.fromLong 18446460386757245432

example : bytesClass_fromLong = .ok () := by decide +kernel

/-- /repo/tests/bytes_unittest.cpp l.1337-1407 -/
def bytesClass_fromLongaddzeros : Res Unit := do
  let mut b1 := (← Bytes.fromLong 0 true)
  expect (8 == b1.len)
  expect (8 == b1.cap)
  expect (0 == (← b1.toLong).toNat)
  let mut b2 := (← Bytes.fromLong 173 true)
  expect (8 == b2.len)
  expect (8 == b2.cap)
  expect (173 == (← b2.toLong).toNat)
  let mut b3 := (← Bytes.fromLong 44460 true)
  expect (8 == b3.len)
  expect (8 == b3.cap)
  expect (44460 == (← b3.toLong).toNat)
  let mut b4 := (← Bytes.fromLong 11381931 true)
  expect (8 == b4.len)
  expect (8 == b4.cap)
  expect (11381931 == (← b4.toLong).toNat)
  let mut b5 := (← Bytes.fromLong 11272362 true)
  expect (8 == b5.len)
  expect (8 == b5.cap)
  expect (11272362 == (← b5.toLong).toNat)
  let mut b6 := (← Bytes.fromLong 4386 true)
  expect (8 == b6.len)
  expect (8 == b6.cap)
  expect (4386 == (← b6.toLong).toNat)
  let mut b7 := (← Bytes.fromLong 75866302320930 true)
  expect (8 == b7.len)
  expect (8 == b7.cap)
  expect (75866302320930 == (← b7.toLong).toNat)
  let mut b8 := (← Bytes.fromLong 281474976710655 true)
  expect (8 == b8.len)
  expect (8 == b8.cap)
  expect (281474976710655 == (← b8.toLong).toNat)
  let mut b9 := (← Bytes.fromLong 18446460386757245432 true)
  expect (8 == b9.len)
  expect (8 == b9.cap)
  expect (18446460386757245432 == (← b9.toLong).toNat)
  let mut b10 := (← Bytes.fromLong 1152903774172327839 true)
  expect (8 == b10.len)
  expect (8 == b10.cap)
  expect (1152903774172327839 == (← b10.toLong).toNat)
  let _ ← Bytes.fromLong 18446460386757245432 true
  let _ ← Bytes.fromLong 1152903774172327839 true
  let _ ← Bytes.fromLong 18446460386757245432 true

example : bytesClass_fromLongaddzeros = .ok () := by decide +kernel

/-- /repo/tests/bytes_unittest.cpp l.1409-1439 -/
def bytesClass_equal : Res Unit := do
  let mut b1 ← Bytes.new 10
  let mut b2 ← Bytes.new 8
  expect (Bytes.beq b1 b2)
  b1 ← b1.addByte 173
  expect (!(Bytes.beq b1 b2))
  b2 ← b2.addByte 173
  expect (Bytes.beq b1 b2)
  b1 ← b1.addByte 172
  expect (!(Bytes.beq b1 b2))
  b2 ← b2.addByte 172
  expect (Bytes.beq b1 b2)
  b1 ← b1.fillrandom (rnd 84)
  b2 ← b2.fillrandom (rnd 85)
  expect (!(Bytes.beq b1 b2))
  let mut b3 ← Bytes.new 0
  let mut b4 ← Bytes.new 10000
  expect (Bytes.beq b3 b4)
  b4 ← b4.addByte 173
  expect (!(Bytes.beq b3 b4))
  let bytes1 : List Byte := [0, 1, 2, 3, 4, 5, 6, 7, 8, 9]
  let mut b5 ← Bytes.new 15
  let mut b6 ← Bytes.new 11
  expect (Bytes.beq b5 b6)
  b5 ← b5.setBytes (bytes1.take 10)
  expect (!(Bytes.beq b5 b6))
  b6 ← b6.setBytes (bytes1.take 10)
  expect (Bytes.beq b5 b6)

example : bytesClass_equal = .ok () := by decide +kernel

/-- /repo/tests/bytes_unittest.cpp l.1441-1505, without its loops -/
def bytesClass_plus : Res Unit := do
  let mut b1 ← Bytes.new 0
  let mut b2 ← Bytes.new 0
  let mut b3 := (← (b1).add b2)
  expect (b1.len == b3.len)
  expect (b2.len == b3.len)
  expect (0 == b3.cap)
  let bytes1 : List Byte := [0, 1, 2, 3, 4, 5, 6, 7, 8, 9]
  let bytes2 : List Byte := [126, 255, 255, 34, 17, 0, 0, 0, 0, 253]
  let bytes3 : List Byte := [126, 0, 1, 37, 21, 5, 6, 7, 8, 6]
  let mut b4 ← Bytes.new 10
  let mut b5 ← Bytes.new 10
  b4 ← b4.setBytes (bytes1.take 10)
  b5 ← b5.setBytes (bytes2.take 10)
  let mut b6 := (← (b4).add b5)
  expect (((b6.data).take 10 == (bytes3).take 10))
  let mut b7 ← Bytes.new 11
  let mut b8 ← Bytes.new 10
  b7 ← b7.fillrandom (rnd 86)
  throws .lengthError (do let _ ← (b7).add b8; pure ())
  b8 ← b8.fillrandom (rnd 87)
  throws .lengthError (do let _ ← (b7).add b8; pure ())
  let mut b9 ← Bytes.new 2
  let mut b10 ← Bytes.new 10
  b9 ← b9.fillrandom (rnd 88)
  b10 ← b10.addrandom 2 (rnd 89)
  let _ ← (b9).add b10
  let mut b11 ← Bytes.new 0
  let mut b12 ← Bytes.new 10
  let _ ← (b11).add b12
  b12 ← b12.addByte 173
  throws .lengthError (do let _ ← (b11).add b12; pure ())

example : bytesClass_plus = .ok () := by decide +kernel

/-- /repo/tests/bytes_unittest.cpp l.1507-1571, without its loops -/
def bytesClass_minus : Res Unit := do
  let mut b1 ← Bytes.new 0
  let mut b2 ← Bytes.new 0
  let mut b3 := (← (b1).sub b2)
  expect (b1.len == b3.len)
  expect (b2.len == b3.len)
  expect (0 == b3.cap)
  let bytes1 : List Byte := [126, 0, 1, 37, 21, 5, 6, 7, 8, 6]
  let bytes2 : List Byte := [126, 255, 255, 34, 17, 0, 0, 0, 0, 253]
  let bytes3 : List Byte := [0, 1, 2, 3, 4, 5, 6, 7, 8, 9]
  let mut b4 ← Bytes.new 10
  let mut b5 ← Bytes.new 10
  b4 ← b4.setBytes (bytes1.take 10)
  b5 ← b5.setBytes (bytes2.take 10)
  let mut b6 := (← (b4).sub b5)
  expect (((b6.data).take 10 == (bytes3).take 10))
  let mut b7 ← Bytes.new 11
  let mut b8 ← Bytes.new 10
  b7 ← b7.fillrandom (rnd 90)
  throws .lengthError (do let _ ← (b7).sub b8; pure ())
  b8 ← b8.fillrandom (rnd 91)
  throws .lengthError (do let _ ← (b7).sub b8; pure ())
  let mut b9 ← Bytes.new 2
  let mut b10 ← Bytes.new 10
  b9 ← b9.fillrandom (rnd 92)
  b10 ← b10.addrandom 2 (rnd 93)
  let _ ← (b9).sub b10
  let mut b11 ← Bytes.new 0
  let mut b12 ← Bytes.new 10
  let _ ← (b11).sub b12
  b12 ← b12.addByte 173
  throws .lengthError (do let _ ← (b11).sub b12; pure ())

example : bytesClass_minus = .ok () := by decide +kernel

/-- /repo/tests/chainhashdata_unittest.cpp l.18-90 -/
def chainHashDataClass_isComplete : Res Unit := do
  let mut chd := ChainHashData.new .quad
  expect (!chd.isComplete)
  expect (!(chd.isCompletedFormat .quad))
  expect (!(chd.isCompletedFormat .normal))
  let mut b ← Bytes.new 8
  b ← b.fillrandom (rnd 94)
  chd ← chd.addBytes b
  expect (!chd.isComplete)
  expect (!(chd.isCompletedFormat .quad))
  expect (!(chd.isCompletedFormat .normal))
  let mut b2 ← Bytes.new 8
  b2 ← b2.fillrandom (rnd 95)
  chd ← chd.addBytes b2
  expect (!chd.isComplete)
  expect (!(chd.isCompletedFormat .quad))
  expect (!(chd.isCompletedFormat .normal))
  let mut b3 ← Bytes.new 8
  b3 ← b3.fillrandom (rnd 96)
  chd ← chd.addBytes b3
  expect (!chd.isComplete)
  expect (!(chd.isCompletedFormat .quad))
  expect (!(chd.isCompletedFormat .normal))
  let mut b4 ← Bytes.new 8
  b4 ← b4.fillrandom (rnd 97)
  chd ← chd.addBytes b4
  expect chd.isComplete
  expect (chd.isCompletedFormat .quad)
  expect (!(chd.isCompletedFormat .normal))
  let mut chd2 := ChainHashData.new .normal
  expect chd2.isComplete
  expect (!(chd2.isCompletedFormat .constSalt))
  expect (chd2.isCompletedFormat .normal)
  let mut chd3 := ChainHashData.new .constSalt
  expect (!chd3.isComplete)
  expect (!(chd3.isCompletedFormat .constCount))
  expect (!(chd3.isCompletedFormat .constSalt))
  chd3 ← chd3.addBytes (← Bytes.new 0)
  expect chd3.isComplete
  expect (!(chd3.isCompletedFormat .constCount))
  expect (chd3.isCompletedFormat .constSalt)
  let mut chd4 := ChainHashData.new .constCount
  expect (!chd4.isComplete)
  expect (!(chd4.isCompletedFormat .constCount))
  expect (!(chd4.isCompletedFormat .count))
  let mut startnum ← Bytes.new 8
  startnum ← startnum.fillrandom (rnd 98)
  chd4 ← chd4.addBytes startnum
  expect (!chd4.isComplete)
  expect (!(chd4.isCompletedFormat .constCount))
  expect (!(chd4.isCompletedFormat .count))
  let mut b5 ← Bytes.new 247
  b5 ← b5.fillrandom (rnd 99)
  chd4 ← chd4.addBytes b5
  expect chd4.isComplete
  expect (chd4.isCompletedFormat .constCount)
  expect (!(chd4.isCompletedFormat .count))
  let mut chd5 := ChainHashData.new .count
  expect (!chd5.isComplete)
  expect (!(chd5.isCompletedFormat .count))
  expect (!(chd5.isCompletedFormat .quad))
  let mut startnum2 ← Bytes.new 8
  startnum2 ← startnum2.fillrandom (rnd 100)
  chd5 ← chd5.addBytes startnum2
  expect chd5.isComplete
  expect (chd5.isCompletedFormat .count)
  expect (!(chd5.isCompletedFormat .quad))

example : chainHashDataClass_isComplete = .ok () := by decide +kernel

/-- /repo/tests/chainhashdata_unittest.cpp l.92-138 -/
def chainHashDataClass_getPartsNumber : Res Unit := do
  let mut chd := ChainHashData.new .normal
  expect (0 == chd.getPartsNumber)
  let mut chd2 := ChainHashData.new .constSalt
  expect (0 == chd2.getPartsNumber)
  let mut b ← Bytes.new 255
  b ← b.fillrandom (rnd 101)
  chd2 ← chd2.addBytes b
  expect (1 == chd2.getPartsNumber)
  let mut chd3 := ChainHashData.new .constCount
  expect (0 == chd3.getPartsNumber)
  let mut startnum ← Bytes.new 8
  startnum ← startnum.fillrandom (rnd 102)
  chd3 ← chd3.addBytes startnum
  expect (1 == chd3.getPartsNumber)
  chd3 ← chd3.addBytes (← Bytes.new 0)
  expect (2 == chd3.getPartsNumber)
  let mut chd4 := ChainHashData.new .count
  expect (0 == chd4.getPartsNumber)
  let mut startnum2 ← Bytes.new 8
  startnum2 ← startnum2.fillrandom (rnd 103)
  chd4 ← chd4.addBytes startnum2
  expect (1 == chd4.getPartsNumber)
  let mut chd5 := ChainHashData.new .quad
  expect (0 == chd5.getPartsNumber)
  let mut startnum3 ← Bytes.new 8
  startnum3 ← startnum3.fillrandom (rnd 104)
  chd5 ← chd5.addBytes startnum3
  expect (1 == chd5.getPartsNumber)
  let mut a ← Bytes.new 8
  a ← a.fillrandom (rnd 105)
  chd5 ← chd5.addBytes a
  expect (2 == chd5.getPartsNumber)
  let mut b2 ← Bytes.new 8
  b2 ← b2.fillrandom (rnd 106)
  chd5 ← chd5.addBytes b2
  expect (3 == chd5.getPartsNumber)
  let mut c ← Bytes.new 8
  c ← c.fillrandom (rnd 107)
  chd5 ← chd5.addBytes c
  expect (4 == chd5.getPartsNumber)

example : chainHashDataClass_getPartsNumber = .ok () := by decide +kernel

/-- /repo/tests/chainhashdata_unittest.cpp l.140-225 -/
def chainHashDataClass_getDataBlock : Res Unit := do
  let mut chd := ChainHashData.new .normal
  expect (Bytes.beq (← Bytes.new 13) (← chd.getDataBlock))
  let mut chd2 := ChainHashData.new .constSalt
  let mut chd3 := ChainHashData.new .constSalt
  throws .logicError (do let _ ← chd2.getDataBlock; pure ())
  throws .logicError (do let _ ← chd3.getDataBlock; pure ())
  let mut b ← Bytes.new 255
  b ← b.fillrandom (rnd 108)
  chd2 ← chd2.addBytes b
  expect (Bytes.beq b (← chd2.getDataBlock))
  chd3 ← chd3.addBytes (← Bytes.new 24)
  expect (Bytes.beq (← Bytes.new 11) (← chd3.getDataBlock))
  let mut chd4 := ChainHashData.new .constCount
  let mut chd5 := ChainHashData.new .constCount
  throws .logicError (do let _ ← chd4.getDataBlock; pure ())
  throws .logicError (do let _ ← chd5.getDataBlock; pure ())
  let mut startnum ← Bytes.new 255
  let mut startnum2 ← Bytes.new 8
  startnum ← startnum.addrandom 8 (rnd 109)
  startnum2 ← startnum2.fillrandom (rnd 110)
  chd4 ← chd4.addBytes startnum
  chd5 ← chd5.addBytes startnum2
  throws .logicError (do let _ ← chd4.getDataBlock; pure ())
  throws .logicError (do let _ ← chd5.getDataBlock; pure ())
  let mut b2 ← Bytes.new 247
  b2 ← b2.fillrandom (rnd 111)
  chd4 ← chd4.addBytes b2
  chd5 ← chd5.addBytes (← Bytes.new 11)
  startnum ← b2.addcopyToBytes startnum
  expect (Bytes.beq startnum (← chd4.getDataBlock))
  expect (Bytes.beq startnum2 (← chd5.getDataBlock))
  let mut chd6 := ChainHashData.new .count
  throws .logicError (do let _ ← chd6.getDataBlock; pure ())
  let mut startnum3 ← Bytes.new 8
  startnum3 ← startnum3.fillrandom (rnd 112)
  chd6 ← chd6.addBytes startnum3
  expect (Bytes.beq startnum3 (← chd6.getDataBlock))
  let mut chd7 := ChainHashData.new .quad
  let mut chd8 := ChainHashData.new .quad
  throws .logicError (do let _ ← chd7.getDataBlock; pure ())
  throws .logicError (do let _ ← chd8.getDataBlock; pure ())
  let mut startnum4 ← Bytes.new 32
  let mut startnum5 ← Bytes.new 32
  startnum4 ← startnum4.addrandom 8 (rnd 113)
  startnum5 ← startnum5.addrandom 8 (rnd 114)
  chd7 ← chd7.addBytes startnum4
  chd8 ← chd8.addBytes startnum5
  throws .logicError (do let _ ← chd7.getDataBlock; pure ())
  throws .logicError (do let _ ← chd8.getDataBlock; pure ())
  let mut b3 ← Bytes.new 8
  let mut b4 ← Bytes.new 8
  let mut b5 ← Bytes.new 8
  let mut b6 ← Bytes.new 8
  let mut b7 ← Bytes.new 8
  let mut b8 ← Bytes.new 8
  b3 ← b3.fillrandom (rnd 115)
  b4 ← b4.fillrandom (rnd 116)
  b5 ← b5.fillrandom (rnd 117)
  b6 ← b6.fillrandom (rnd 118)
  b7 ← b7.fillrandom (rnd 119)
  b8 ← b8.fillrandom (rnd 120)
  chd7 ← chd7.addBytes b3
  chd8 ← chd8.addBytes b4
  throws .logicError (do let _ ← chd7.getDataBlock; pure ())
  throws .logicError (do let _ ← chd8.getDataBlock; pure ())
  startnum4 ← b3.addcopyToBytes startnum4
  startnum5 ← b4.addcopyToBytes startnum5
  chd7 ← chd7.addBytes b5
  chd8 ← chd8.addBytes b6
  throws .logicError (do let _ ← chd7.getDataBlock; pure ())
  throws .logicError (do let _ ← chd8.getDataBlock; pure ())
  startnum4 ← b5.addcopyToBytes startnum4
  startnum5 ← b6.addcopyToBytes startnum5
  chd7 ← chd7.addBytes b7
  chd8 ← chd8.addBytes b8
  startnum4 ← b7.addcopyToBytes startnum4
  startnum5 ← b8.addcopyToBytes startnum5
  expect (Bytes.beq startnum4 (← chd7.getDataBlock))
  expect (Bytes.beq startnum5 (← chd8.getDataBlock))

example : chainHashDataClass_getDataBlock = .ok () := by decide +kernel

/-- /repo/tests/chainhashdata_unittest.cpp l.227-333 -/
def chainHashDataClass_getPart : Res Unit := do
  let mut chd := ChainHashData.new .normal
  throws .invalidArgument (do let _ ← chd.getPart "S"; pure ())
  let mut chd2 := ChainHashData.new .constSalt
  throws .invalidArgument (do let _ ← chd2.getPart "S"; pure ())
  let mut b ← Bytes.new 255
  b ← b.fillrandom (rnd 121)
  chd2 ← chd2.addBytes b
  expect (Bytes.beq b (← chd2.getPart "S"))
  throws .invalidArgument (do let _ ← chd2.getPart "A"; pure ())
  let mut chd3 := ChainHashData.new .constCount
  let mut chd4 := ChainHashData.new .constCount
  throws .invalidArgument (do let _ ← chd3.getPart "S"; pure ())
  throws .invalidArgument (do let _ ← chd3.getPart "SN"; pure ())
  let mut startnum ← Bytes.new 8
  startnum ← startnum.fillrandom (rnd 122)
  chd3 ← chd3.addBytes startnum
  chd4 ← chd4.addBytes startnum
  expect (Bytes.beq startnum (← chd3.getPart "SN"))
  throws .invalidArgument (do let _ ← chd3.getPart "S"; pure ())
  let mut b2 ← Bytes.new 247
  b2 ← b2.fillrandom (rnd 123)
  chd3 ← chd3.addBytes b2
  chd4 ← chd4.addBytes (← Bytes.new 14)
  expect (Bytes.beq b2 (← chd3.getPart "S"))
  expect (Bytes.beq (← Bytes.new 0) (← chd4.getPart "S"))
  expect (Bytes.beq startnum (← chd3.getPart "SN"))
  expect (Bytes.beq startnum (← chd4.getPart "SN"))
  throws .invalidArgument (do let _ ← chd3.getPart "A"; pure ())
  throws .invalidArgument (do let _ ← chd4.getPart "A"; pure ())
  let mut chd5 := ChainHashData.new .count
  throws .invalidArgument (do let _ ← chd5.getPart "SN"; pure ())
  let mut startnum2 ← Bytes.new 8
  startnum2 ← startnum2.fillrandom (rnd 124)
  chd5 ← chd5.addBytes startnum2
  expect (Bytes.beq startnum2 (← chd5.getPart "SN"))
  throws .invalidArgument (do let _ ← chd5.getPart "S"; pure ())
  let mut chd6 := ChainHashData.new .quad
  let mut chd7 := ChainHashData.new .quad
  throws .invalidArgument (do let _ ← chd6.getPart "SN"; pure ())
  throws .invalidArgument (do let _ ← chd6.getPart "A"; pure ())
  throws .invalidArgument (do let _ ← chd6.getPart "B"; pure ())
  throws .invalidArgument (do let _ ← chd6.getPart "C"; pure ())
  let mut startnum3 ← Bytes.new 8
  let mut startnum4 ← Bytes.new 8
  startnum3 ← startnum3.fillrandom (rnd 125)
  startnum4 ← startnum4.fillrandom (rnd 126)
  chd6 ← chd6.addBytes startnum3
  chd7 ← chd7.addBytes startnum4
  expect (Bytes.beq startnum3 (← chd6.getPart "SN"))
  expect (Bytes.beq startnum4 (← chd7.getPart "SN"))
  throws .invalidArgument (do let _ ← chd6.getPart "A"; pure ())
  throws .invalidArgument (do let _ ← chd7.getPart "A"; pure ())
  throws .invalidArgument (do let _ ← chd6.getPart "B"; pure ())
  throws .invalidArgument (do let _ ← chd7.getPart "B"; pure ())
  throws .invalidArgument (do let _ ← chd6.getPart "C"; pure ())
  throws .invalidArgument (do let _ ← chd7.getPart "C"; pure ())
  let mut b3 ← Bytes.new 8
  let mut b4 ← Bytes.new 8
  b3 ← b3.fillrandom (rnd 127)
  b4 ← b4.fillrandom (rnd 128)
  chd6 ← chd6.addBytes b3
  chd7 ← chd7.addBytes b4
  expect (Bytes.beq startnum3 (← chd6.getPart "SN"))
  expect (Bytes.beq startnum4 (← chd7.getPart "SN"))
  expect (Bytes.beq b3 (← chd6.getPart "A"))
  expect (Bytes.beq b4 (← chd7.getPart "A"))
  throws .invalidArgument (do let _ ← chd6.getPart "B"; pure ())
  throws .invalidArgument (do let _ ← chd7.getPart "B"; pure ())
  throws .invalidArgument (do let _ ← chd6.getPart "C"; pure ())
  throws .invalidArgument (do let _ ← chd7.getPart "C"; pure ())
  let mut b5 ← Bytes.new 8
  let mut b6 ← Bytes.new 8
  b5 ← b5.fillrandom (rnd 129)
  b6 ← b6.fillrandom (rnd 130)
  chd6 ← chd6.addBytes b5
  chd7 ← chd7.addBytes b6
  expect (Bytes.beq startnum3 (← chd6.getPart "SN"))
  expect (Bytes.beq startnum4 (← chd7.getPart "SN"))
  expect (Bytes.beq b3 (← chd6.getPart "A"))
  expect (Bytes.beq b4 (← chd7.getPart "A"))
  expect (Bytes.beq b5 (← chd6.getPart "B"))
  expect (Bytes.beq b6 (← chd7.getPart "B"))
  throws .invalidArgument (do let _ ← chd6.getPart "C"; pure ())
  throws .invalidArgument (do let _ ← chd7.getPart "C"; pure ())
  let mut b7 ← Bytes.new 8
  let mut b8 ← Bytes.new 8
  b7 ← b7.fillrandom (rnd 131)
  b8 ← b8.fillrandom (rnd 132)
  chd6 ← chd6.addBytes b7
  chd7 ← chd7.addBytes b8
  expect (Bytes.beq startnum3 (← chd6.getPart "SN"))
  expect (Bytes.beq startnum4 (← chd7.getPart "SN"))
  expect (Bytes.beq b3 (← chd6.getPart "A"))
  expect (Bytes.beq b4 (← chd7.getPart "A"))
  expect (Bytes.beq b5 (← chd6.getPart "B"))
  expect (Bytes.beq b6 (← chd7.getPart "B"))
  expect (Bytes.beq b7 (← chd6.getPart "C"))
  expect (Bytes.beq b8 (← chd7.getPart "C"))
  throws .invalidArgument (do let _ ← chd6.getPart "D"; pure ())
  throws .invalidArgument (do let _ ← chd7.getPart "D"; pure ())

example : chainHashDataClass_getPart = .ok () := by decide +kernel

/-- /repo/tests/chainhashdata_unittest.cpp l.335-390 -/
def chainHashDataClass_getLen : Res Unit := do
  let mut chd := ChainHashData.new .normal
  expect (0 == chd.getLen)
  let mut chd2 := ChainHashData.new .constSalt
  let mut chd3 := ChainHashData.new .constSalt
  expect (0 == chd2.getLen)
  expect (0 == chd3.getLen)
  let mut b ← Bytes.new 255
  b ← b.fillrandom (rnd 133)
  chd2 ← chd2.addBytes b
  chd3 ← chd3.addBytes (← Bytes.new 12)
  expect (255 == chd2.getLen)
  expect (0 == chd3.getLen)
  let mut chd4 := ChainHashData.new .constCount
  let mut chd5 := ChainHashData.new .constCount
  expect (0 == chd4.getLen)
  expect (0 == chd5.getLen)
  let mut startnum ← Bytes.new 8
  let mut startnum2 ← Bytes.new 8
  startnum ← startnum.fillrandom (rnd 134)
  startnum2 ← startnum2.fillrandom (rnd 135)
  chd4 ← chd4.addBytes startnum
  chd5 ← chd5.addBytes startnum2
  expect (8 == chd4.getLen)
  expect (8 == chd5.getLen)
  let mut b2 ← Bytes.new 247
  b2 ← b2.fillrandom (rnd 136)
  chd4 ← chd4.addBytes b2
  chd5 ← chd5.addBytes (← Bytes.new 0)
  expect (255 == chd4.getLen)
  expect (8 == chd5.getLen)
  let mut chd6 := ChainHashData.new .count
  expect (0 == chd6.getLen)
  let mut startnum3 ← Bytes.new 8
  startnum3 ← startnum3.fillrandom (rnd 137)
  chd6 ← chd6.addBytes startnum3
  expect (8 == chd6.getLen)
  let mut chd7 := ChainHashData.new .quad
  expect (0 == chd7.getLen)
  let mut startnum4 ← Bytes.new 8
  startnum4 ← startnum4.fillrandom (rnd 138)
  chd7 ← chd7.addBytes startnum4
  expect (8 == chd7.getLen)
  chd7 ← chd7.addBytes startnum4
  expect (16 == chd7.getLen)
  chd7 ← chd7.addBytes startnum4
  expect (24 == chd7.getLen)
  chd7 ← chd7.addBytes startnum4
  expect (32 == chd7.getLen)

example : chainHashDataClass_getLen = .ok () := by decide +kernel

/-- /repo/tests/chainhashdata_unittest.cpp l.392-475 -/
def chainHashDataClass_addBytes : Res Unit := do
  let mut chd := ChainHashData.new .normal
  let mut b255 ← Bytes.new 255
  let mut b256 ← Bytes.new 256
  let mut b248 ← Bytes.new 248
  let mut b247 ← Bytes.new 247
  let mut b100 ← Bytes.new 100
  let mut b8 ← Bytes.new 8
  let mut b4 ← Bytes.new 4
  b255 ← b255.fillrandom (rnd 139)
  b256 ← b256.fillrandom (rnd 140)
  b248 ← b248.fillrandom (rnd 141)
  b247 ← b247.fillrandom (rnd 142)
  b100 ← b100.fillrandom (rnd 143)
  b8 ← b8.fillrandom (rnd 144)
  b4 ← b4.fillrandom (rnd 145)
  throws .logicError (do let _ ← chd.addBytes (← Bytes.new 1); pure ())
  throws .logicError (do let _ ← chd.addBytes b255; pure ())
  throws .logicError (do let _ ← chd.addBytes b8; pure ())
  let mut chd2 := ChainHashData.new .constSalt
  let mut chd3 := ChainHashData.new .constSalt
  let mut chd4 := ChainHashData.new .constSalt
  chd2 ← chd2.addBytes (← Bytes.new 12)
  chd3 ← chd3.addBytes b255
  throws .logicError (do let _ ← chd4.addBytes b256; pure ())
  throws .logicError (do let _ ← chd2.addBytes b8; pure ())
  throws .logicError (do let _ ← chd2.addBytes (← Bytes.new 0); pure ())
  throws .logicError (do let _ ← chd3.addBytes (← Bytes.new 0); pure ())
  let mut chd5 := ChainHashData.new .constCount
  let mut chd6 := ChainHashData.new .constCount
  let mut chd7 := ChainHashData.new .constCount
  chd5 ← chd5.addBytes b8
  throws .logicError (do let _ ← chd6.addBytes (← Bytes.new 1); pure ())
  throws .logicError (do let _ ← chd6.addBytes b4; pure ())
  throws .logicError (do let _ ← chd7.addBytes b255; pure ())
  chd6 ← chd6.addBytes b8
  chd7 ← chd7.addBytes b8
  throws .logicError (do let _ ← chd5.addBytes b248; pure ())
  throws .logicError (do let _ ← chd6.addBytes b255; pure ())
  chd5 ← chd5.addBytes (← Bytes.new 0)
  chd6 ← chd6.addBytes b247
  chd7 ← chd7.addBytes b100
  throws .logicError (do let _ ← chd5.addBytes b8; pure ())
  throws .logicError (do let _ ← chd6.addBytes (← Bytes.new 0); pure ())
  throws .logicError (do let _ ← chd7.addBytes b255; pure ())
  let mut chd8 := ChainHashData.new .count
  throws .logicError (do let _ ← chd8.addBytes (← Bytes.new 238); pure ())
  throws .logicError (do let _ ← chd8.addBytes b4; pure ())
  throws .logicError (do let _ ← chd8.addBytes b255; pure ())
  chd8 ← chd8.addBytes b8
  throws .logicError (do let _ ← chd8.addBytes b8; pure ())
  throws .logicError (do let _ ← chd8.addBytes (← Bytes.new 0); pure ())
  let mut chd9 := ChainHashData.new .quad
  throws .logicError (do let _ ← chd9.addBytes (← Bytes.new 0); pure ())
  throws .logicError (do let _ ← chd9.addBytes b4; pure ())
  throws .logicError (do let _ ← chd9.addBytes b255; pure ())
  chd9 ← chd9.addBytes b8
  throws .logicError (do let _ ← chd9.addBytes (← Bytes.new 76); pure ())
  throws .logicError (do let _ ← chd9.addBytes b4; pure ())
  throws .logicError (do let _ ← chd9.addBytes b255; pure ())
  chd9 ← chd9.addBytes b8
  throws .logicError (do let _ ← chd9.addBytes (← Bytes.new 0); pure ())
  throws .logicError (do let _ ← chd9.addBytes b4; pure ())
  throws .logicError (do let _ ← chd9.addBytes b255; pure ())
  chd9 ← chd9.addBytes b8
  throws .logicError (do let _ ← chd9.addBytes (← Bytes.new 1); pure ())
  throws .logicError (do let _ ← chd9.addBytes b4; pure ())
  throws .logicError (do let _ ← chd9.addBytes b255; pure ())
  chd9 ← chd9.addBytes b8
  throws .logicError (do let _ ← chd9.addBytes (← Bytes.new 0); pure ())
  throws .logicError (do let _ ← chd9.addBytes b4; pure ())
  throws .logicError (do let _ ← chd9.addBytes b255; pure ())
  throws .logicError (do let _ ← chd9.addBytes b8; pure ())

example : chainHashDataClass_addBytes = .ok () := by decide +kernel

/-- /repo/tests/chainhashdata_unittest.cpp l.477-633 -/
def chainHashDataClass_operator : Res Unit := do
  let mut chd := ChainHashData.new .normal
  let mut chd2 := ChainHashData.new .normal
  let mut chd3 := ChainHashData.new .normal
  expect (← ChainHashData.eq chd chd2)
  expect (← ChainHashData.eq chd2 chd)
  expect (← ChainHashData.eq chd chd)
  expect (← ChainHashData.eq chd chd3)
  expect (← ChainHashData.eq chd3 chd2)
  let mut chd4 := ChainHashData.new .constSalt
  let mut chd5 := ChainHashData.new .constSalt
  let mut chd6 := ChainHashData.new .constSalt
  expect (!(← ChainHashData.eq chd4 chd5))
  expect (!(← ChainHashData.eq chd5 chd6))
  expect (!(← ChainHashData.eq chd6 chd6))
  let mut b1 ← Bytes.new 0
  let mut b2 ← Bytes.new 255
  b1 ← b1.fillrandom (rnd 146)
  b2 ← b2.fillrandom (rnd 147)
  chd4 ← chd4.addBytes b1
  chd5 ← chd5.addBytes b2
  expect (!(← ChainHashData.eq chd4 chd5))
  expect (!(← ChainHashData.eq chd5 chd6))
  expect (!(← ChainHashData.eq chd6 chd6))
  expect (← ChainHashData.eq chd4 chd4)
  expect (← ChainHashData.eq chd5 chd5)
  chd6 ← chd6.addBytes b2
  expect (!(← ChainHashData.eq chd4 chd5))
  expect (!(← ChainHashData.eq chd4 chd6))
  expect (← ChainHashData.eq chd5 chd6)
  expect (← ChainHashData.eq chd6 chd6)
  let mut chd7 := ChainHashData.new .constCount
  let mut chd8 := ChainHashData.new .constCount
  let mut chd9 := ChainHashData.new .constCount
  let mut chd10 := ChainHashData.new .constCount
  let mut chd11 := ChainHashData.new .constCount
  expect (!(← ChainHashData.eq chd7 chd8))
  expect (!(← ChainHashData.eq chd8 chd9))
  expect (!(← ChainHashData.eq chd9 chd9))
  let mut startnum ← Bytes.new 8
  let mut startnum2 ← Bytes.new 8
  startnum ← startnum.fillrandom (rnd 148)
  startnum2 ← startnum2.fillrandom (rnd 149)
  chd7 ← chd7.addBytes startnum
  chd8 ← chd8.addBytes startnum
  chd9 ← chd9.addBytes startnum2
  chd10 ← chd10.addBytes startnum2
  chd11 ← chd11.addBytes startnum
  expect (!(← ChainHashData.eq chd7 chd8))
  expect (!(← ChainHashData.eq chd8 chd9))
  expect (!(← ChainHashData.eq chd9 chd9))
  expect (!(← ChainHashData.eq chd9 chd10))
  let mut b3 ← Bytes.new 0
  let mut b4 ← Bytes.new 247
  b3 ← b3.fillrandom (rnd 150)
  b4 ← b4.fillrandom (rnd 151)
  chd7 ← chd7.addBytes b3
  expect (← ChainHashData.eq chd7 chd7)
  expect (!(← ChainHashData.eq chd7 chd8))
  chd8 ← chd8.addBytes b3
  expect (← ChainHashData.eq chd8 chd8)
  expect (← ChainHashData.eq chd7 chd8)
  chd11 ← chd11.addBytes b4
  expect (!(← ChainHashData.eq chd7 chd11))
  expect (!(← ChainHashData.eq chd8 chd11))
  expect (← ChainHashData.eq chd11 chd11)
  chd10 ← chd10.addBytes b4
  expect (← ChainHashData.eq chd10 chd10)
  expect (!(← ChainHashData.eq chd10 chd11))
  expect (!(← ChainHashData.eq chd9 chd10))
  chd9 ← chd9.addBytes b4
  expect (← ChainHashData.eq chd9 chd9)
  expect (← ChainHashData.eq chd9 chd10)
  expect (!(← ChainHashData.eq chd9 chd11))
  expect (!(← ChainHashData.eq chd10 chd11))
  let mut chd12 := ChainHashData.new .count
  let mut chd13 := ChainHashData.new .count
  let mut chd14 := ChainHashData.new .count
  let mut startnum3 ← Bytes.new 8
  startnum3 ← startnum3.fillrandom (rnd 152)
  expect (!(← ChainHashData.eq chd12 chd13))
  expect (!(← ChainHashData.eq chd13 chd14))
  expect (!(← ChainHashData.eq chd14 chd14))
  chd12 ← chd12.addBytes startnum3
  chd13 ← chd13.addBytes startnum3
  let mut b8 ← Bytes.new 8
  b8 ← b8.fillrandom (rnd 153)
  chd14 ← chd14.addBytes b8
  expect (!(← ChainHashData.eq chd14 chd12))
  expect (!(← ChainHashData.eq chd14 chd13))
  expect (← ChainHashData.eq chd12 chd12)
  expect (← ChainHashData.eq chd13 chd13)
  expect (← ChainHashData.eq chd12 chd13)
  expect (← ChainHashData.eq chd14 chd14)
  let mut chd15 := ChainHashData.new .quad
  let mut chd16 := ChainHashData.new .quad
  let mut chd17 := ChainHashData.new .quad
  let mut chd18 := ChainHashData.new .quad
  let mut startnum4 ← Bytes.new 8
  startnum4 ← startnum4.fillrandom (rnd 154)
  expect (!(← ChainHashData.eq chd15 chd16))
  expect (!(← ChainHashData.eq chd16 chd17))
  expect (!(← ChainHashData.eq chd17 chd17))
  expect (!(← ChainHashData.eq chd18 chd18))
  expect (!(← ChainHashData.eq chd15 chd18))
  chd15 ← chd15.addBytes startnum4
  chd16 ← chd16.addBytes startnum4
  chd17 ← chd17.addBytes startnum4
  chd18 ← chd18.addBytes b8
  expect (!(← ChainHashData.eq chd15 chd16))
  expect (!(← ChainHashData.eq chd16 chd17))
  expect (!(← ChainHashData.eq chd17 chd17))
  expect (!(← ChainHashData.eq chd18 chd18))
  expect (!(← ChainHashData.eq chd15 chd18))
  let mut b5 ← Bytes.new 8
  let mut b6 ← Bytes.new 8
  let mut b7 ← Bytes.new 8
  b5 ← b5.fillrandom (rnd 155)
  b6 ← b6.fillrandom (rnd 156)
  b7 ← b7.fillrandom (rnd 157)
  chd15 ← chd15.addBytes b5
  chd16 ← chd16.addBytes b5
  chd17 ← chd17.addBytes b5
  chd18 ← chd18.addBytes b5
  expect (!(← ChainHashData.eq chd15 chd16))
  expect (!(← ChainHashData.eq chd16 chd17))
  expect (!(← ChainHashData.eq chd17 chd17))
  expect (!(← ChainHashData.eq chd18 chd18))
  expect (!(← ChainHashData.eq chd15 chd18))
  chd15 ← chd15.addBytes b6
  chd16 ← chd16.addBytes b6
  chd17 ← chd17.addBytes b6
  chd18 ← chd18.addBytes b6
  expect (!(← ChainHashData.eq chd15 chd16))
  expect (!(← ChainHashData.eq chd16 chd17))
  expect (!(← ChainHashData.eq chd17 chd17))
  expect (!(← ChainHashData.eq chd18 chd18))
  expect (!(← ChainHashData.eq chd15 chd18))
  chd15 ← chd15.addBytes b8
  chd16 ← chd16.addBytes b7
  chd17 ← chd17.addBytes b7
  chd18 ← chd18.addBytes b7
  expect (!(← ChainHashData.eq chd15 chd16))
  expect (← ChainHashData.eq chd16 chd17)
  expect (← ChainHashData.eq chd17 chd17)
  expect (← ChainHashData.eq chd18 chd18)
  expect (!(← ChainHashData.eq chd15 chd18))
  expect (← ChainHashData.eq chd16 chd16)
  expect (← ChainHashData.eq chd15 chd15)
  expect (!(← ChainHashData.eq chd16 chd18))

example : chainHashDataClass_operator = .ok () := by decide +kernel

/-- /repo/tests/block_unittest.cpp l.9-88 -/
def blockClass_DecryptBlock : Res Unit := do
  let mut salt ← Bytes.new 32
  salt ← salt.fillrandom (rnd 158)
  let mut block ← Block.new (sha2.get .sha256) salt
  expect (block.getFreeSpace (sha2.get .sha256) == 32)
  throws .lengthError (do let _ ← block.getHash (sha2.get .sha256); pure ())
  expect (Bytes.beq (← Bytes.new 10) (← block.getResult .dec (sha2.get .sha256)))
  block ← block.addData .dec (sha2.get .sha256) (← Bytes.new 10)
  expect (block.getFreeSpace (sha2.get .sha256) == 32)
  throws .lengthError (do let _ ← block.getHash (sha2.get .sha256); pure ())
  expect (Bytes.beq (← Bytes.new 10) (← block.getResult .dec (sha2.get .sha256)))
  let mut b ← Bytes.new 10
  b ← b.fillrandom (rnd 159)
  block ← block.addData .dec (sha2.get .sha256) b
  expect (block.getFreeSpace (sha2.get .sha256) == 22)
  throws .lengthError (do let _ ← block.getHash (sha2.get .sha256); pure ())
  expect (Bytes.beq ((← (b).sub (← salt.copySubBytes 0 10))) (← block.getResult .dec (sha2.get .sha256)))
  let mut b2 ← Bytes.new 21
  let mut b3 ← Bytes.new 100
  b2 ← b2.fillrandom (rnd 160)
  b3 ← b.copyToBytes b3
  b3 ← b2.addcopyToBytes b3
  block ← block.addData .dec (sha2.get .sha256) b2
  expect (block.getFreeSpace (sha2.get .sha256) == 1)
  throws .lengthError (do let _ ← block.getHash (sha2.get .sha256); pure ())
  expect (Bytes.beq ((← (b3).sub (← salt.copySubBytes 0 31))) (← block.getResult .dec (sha2.get .sha256)))
  let mut b4 ← Bytes.new 1
  b4 ← b4.fillrandom (rnd 161)
  b3 ← b4.addcopyToBytes b3
  block ← block.addData .dec (sha2.get .sha256) b4
  expect (block.getFreeSpace (sha2.get .sha256) == 0)
  expect (Bytes.beq ((← HashFn.hash (sha2.get .sha256) (← (b3).sub salt))) (← block.getHash (sha2.get .sha256)))
  expect (Bytes.beq (← (b3).sub salt) (← block.getResult .dec (sha2.get .sha256)))
  block ← block.addData .dec (sha2.get .sha256) (← Bytes.new 10)
  expect (block.getFreeSpace (sha2.get .sha256) == 0)
  expect (Bytes.beq ((← HashFn.hash (sha2.get .sha256) (← (b3).sub salt))) (← block.getHash (sha2.get .sha256)))
  expect (Bytes.beq (← (b3).sub salt) (← block.getResult .dec (sha2.get .sha256)))
  throws .lengthError (do let _ ← block.addData .dec (sha2.get .sha256) b4; pure ())
  let mut block2 ← Block.new (sha2.get .sha256) salt
  b3 ← b4.addcopyToBytes b3
  throws .lengthError (do let _ ← block2.addData .dec (sha2.get .sha256) b3; pure ())
  throws .lengthError (do let _ ← Block.new (sha2.get .sha256) (← Bytes.new 32); pure ())
  throws .lengthError (do let _ ← Block.new (sha2.get .sha256) (← Bytes.new 0); pure ())
  throws .lengthError (do let _ ← Block.new (sha2.get .sha256) b3; pure ())
  throws .lengthError (do let _ ← Block.new (sha2.get .sha256) b2; pure ())
  throws .lengthError (do let _ ← Block.new (sha2.get .sha384) salt; pure ())
  throws .lengthError (do let _ ← Block.new (sha2.get .sha512) salt; pure ())
  throws .lengthError (do let _ ← Block.new (sha2.get .sha384) b3; pure ())
  throws .lengthError (do let _ ← Block.new (sha2.get .sha512) b3; pure ())
  let mut b5 ← Bytes.new 65
  b5 ← b5.addrandom 15 (rnd 162)
  b3 ← b5.addcopyToBytes b3
  let _ ← Block.new (sha2.get .sha384) b3
  let mut block11 ← Block.new (sha2.get .sha384) b3
  expect (block11.getFreeSpace (sha2.get .sha384) == 48)
  throws .lengthError (do let _ ← Block.new (sha2.get .sha512) b3; pure ())
  b3 ← b4.addcopyToBytes b3
  throws .lengthError (do let _ ← Block.new (sha2.get .sha384) b3; pure ())
  b3 ← b5.addcopyToBytes b3
  throws .lengthError (do let _ ← Block.new (sha2.get .sha384) b3; pure ())
  let _ ← Block.new (sha2.get .sha512) b3
  let mut block15 ← Block.new (sha2.get .sha512) b3
  expect (block15.getFreeSpace (sha2.get .sha512) == 64)
  b3 ← b5.addcopyToBytes b3
  throws .lengthError (do let _ ← Block.new (sha2.get .sha512) b3; pure ())

example : blockClass_DecryptBlock = .ok () := by decide +kernel

/-- /repo/tests/block_unittest.cpp l.90-169 -/
def blockClass_EncryptBlock : Res Unit := do
  let mut salt ← Bytes.new 32
  salt ← salt.fillrandom (rnd 163)
  let mut block ← Block.new (sha2.get .sha256) salt
  expect (block.getFreeSpace (sha2.get .sha256) == 32)
  throws .lengthError (do let _ ← block.getHash (sha2.get .sha256); pure ())
  expect (Bytes.beq (← Bytes.new 10) (← block.getResult .enc (sha2.get .sha256)))
  block ← block.addData .enc (sha2.get .sha256) (← Bytes.new 10)
  expect (block.getFreeSpace (sha2.get .sha256) == 32)
  throws .lengthError (do let _ ← block.getHash (sha2.get .sha256); pure ())
  expect (Bytes.beq (← Bytes.new 10) (← block.getResult .enc (sha2.get .sha256)))
  let mut b ← Bytes.new 10
  b ← b.fillrandom (rnd 164)
  block ← block.addData .enc (sha2.get .sha256) b
  expect (block.getFreeSpace (sha2.get .sha256) == 22)
  throws .lengthError (do let _ ← block.getHash (sha2.get .sha256); pure ())
  expect (Bytes.beq ((← (b).add (← salt.copySubBytes 0 10))) (← block.getResult .enc (sha2.get .sha256)))
  let mut b2 ← Bytes.new 21
  let mut b3 ← Bytes.new 100
  b2 ← b2.fillrandom (rnd 165)
  b3 ← b.copyToBytes b3
  b3 ← b2.addcopyToBytes b3
  block ← block.addData .enc (sha2.get .sha256) b2
  expect (block.getFreeSpace (sha2.get .sha256) == 1)
  throws .lengthError (do let _ ← block.getHash (sha2.get .sha256); pure ())
  expect (Bytes.beq ((← (b3).add (← salt.copySubBytes 0 31))) (← block.getResult .enc (sha2.get .sha256)))
  let mut b4 ← Bytes.new 1
  b4 ← b4.fillrandom (rnd 166)
  b3 ← b4.addcopyToBytes b3
  block ← block.addData .enc (sha2.get .sha256) b4
  expect (block.getFreeSpace (sha2.get .sha256) == 0)
  expect (Bytes.beq (← HashFn.hash (sha2.get .sha256) b3) (← block.getHash (sha2.get .sha256)))
  expect (Bytes.beq (← (b3).add salt) (← block.getResult .enc (sha2.get .sha256)))
  block ← block.addData .enc (sha2.get .sha256) (← Bytes.new 10)
  expect (block.getFreeSpace (sha2.get .sha256) == 0)
  expect (Bytes.beq (← HashFn.hash (sha2.get .sha256) b3) (← block.getHash (sha2.get .sha256)))
  expect (Bytes.beq (← (b3).add salt) (← block.getResult .enc (sha2.get .sha256)))
  throws .lengthError (do let _ ← block.addData .enc (sha2.get .sha256) b4; pure ())
  let mut block2 ← Block.new (sha2.get .sha256) salt
  b3 ← b4.addcopyToBytes b3
  throws .lengthError (do let _ ← block2.addData .enc (sha2.get .sha256) b3; pure ())
  throws .lengthError (do let _ ← Block.new (sha2.get .sha256) (← Bytes.new 32); pure ())
  throws .lengthError (do let _ ← Block.new (sha2.get .sha256) (← Bytes.new 0); pure ())
  throws .lengthError (do let _ ← Block.new (sha2.get .sha256) b3; pure ())
  throws .lengthError (do let _ ← Block.new (sha2.get .sha256) b2; pure ())
  throws .lengthError (do let _ ← Block.new (sha2.get .sha384) salt; pure ())
  throws .lengthError (do let _ ← Block.new (sha2.get .sha512) salt; pure ())
  throws .lengthError (do let _ ← Block.new (sha2.get .sha384) b3; pure ())
  throws .lengthError (do let _ ← Block.new (sha2.get .sha512) b3; pure ())
  let mut b5 ← Bytes.new 65
  b5 ← b5.addrandom 15 (rnd 167)
  b3 ← b5.addcopyToBytes b3
  let _ ← Block.new (sha2.get .sha384) b3
  let mut block11 ← Block.new (sha2.get .sha384) b3
  expect (block11.getFreeSpace (sha2.get .sha384) == 48)
  throws .lengthError (do let _ ← Block.new (sha2.get .sha512) b3; pure ())
  b3 ← b4.addcopyToBytes b3
  throws .lengthError (do let _ ← Block.new (sha2.get .sha384) b3; pure ())
  b3 ← b5.addcopyToBytes b3
  throws .lengthError (do let _ ← Block.new (sha2.get .sha384) b3; pure ())
  let _ ← Block.new (sha2.get .sha512) b3
  let mut block15 ← Block.new (sha2.get .sha512) b3
  expect (block15.getFreeSpace (sha2.get .sha512) == 64)
  b3 ← b5.addcopyToBytes b3
  throws .lengthError (do let _ ← Block.new (sha2.get .sha512) b3; pure ())

example : blockClass_EncryptBlock = .ok () := by decide +kernel

/-- /repo/tests/utility_unittest.cpp l.9-37 -/
def utilityClass_endswith : Res Unit := do
  expect (endsWith (utf8 "isdahfaksjdfas asdf asdf sadffsaasdfkoö-.:fp9pfdas ") (utf8 "isdahfaksjdfas asdf asdf sadffsaasdfkoö-.:fp9pfdas "))
  expect (endsWith (utf8 "isdahfaksjdfas asdf asdf sadffsaasdfkoö-.:fp9pfdas ") (utf8 ""))
  expect (endsWith (utf8 "isdahfaksjdfas asdf asdf sadffsaasdfkoö-.:fp9pfdas ") (utf8 " "))
  expect (endsWith (utf8 "isdahfaksjdfas asdf asdf sadffsaasdfkoö-.:fp9pfdas ") (utf8 "pfdas "))
  expect (!(endsWith (utf8 "isdahfaksjdfas asdf asdf sadffsaasdfkoö-.:fp9pfdas ") (utf8 " pfdas ")))
  expect (endsWith (utf8 "") (utf8 ""))
  expect (!(endsWith (utf8 "") (utf8 " ")))
  expect (!(endsWith (utf8 "") (utf8 "\n")))
  expect (endsWith (utf8 "moi.n") (utf8 "moi.n"))
  expect (!(endsWith (utf8 "moi.n") (utf8 " ")))
  expect (!(endsWith (utf8 "moi.n") (utf8 " moi.n")))

example : utilityClass_endswith = .ok () := by decide +kernel

/-- /repo/tests/utility_unittest.cpp l.39-53, without its loops -/
def utilityClass_stringToBytes : Res Unit := do
  let _ ← Bytes.new 10
  let mut b2 ← Bytes.new 4
  b2 ← b2.addByte 109
  b2 ← b2.addByte 111
  b2 ← b2.addByte 105
  b2 ← b2.addByte 110
  expect (Bytes.beq b2 (← stringToBytes (utf8 "moin")))

example : utilityClass_stringToBytes = .ok () := by decide +kernel

/-- /repo/tests/utility_unittest.cpp l.55-69, without its loops -/
def utilityClass_bytesTostr : Res Unit := do
  let _ ← Bytes.new 10
  let mut b2 ← Bytes.new 4
  b2 ← b2.addByte 109
  b2 ← b2.addByte 111
  b2 ← b2.addByte 105
  b2 ← b2.addByte 110
  expect ((utf8 "moin") == bytesToString b2)

example : utilityClass_bytesTostr = .ok () := by decide +kernel

/-- /repo/tests/utility_unittest.cpp l.71-94 -/
def utilityClass_getLongLen : Res Unit := do
  expect (0 == getLongLen 0)
  expect (1 == getLongLen 1)
  expect (8 == getLongLen 18446744073709551615)
  expect (8 == getLongLen 18446744073709551614)
  expect (7 == getLongLen 72057594037927935)
  expect (7 == getLongLen 72057594037927934)
  expect (8 == getLongLen 72057594037927936)
  expect (2 == getLongLen 256)
  expect (1 == getLongLen 255)
  expect (5 == getLongLen 4294967296)
  expect (4 == getLongLen 4294967295)

example : utilityClass_getLongLen = .ok () := by decide +kernel

/-- /repo/tests/utility_unittest.cpp l.96-171 -/
def utilityClass_isValidNumber : Res Unit := do
  expect (isValidNumber (utf8 "0") false 0 18446744073709551615)
  expect (isValidNumber (utf8 "0") true 0 18446744073709551615)
  expect (isValidNumber (utf8 "0") true 0 1)
  expect (isValidNumber (utf8 "0") true 0 0)
  expect (!(isValidNumber (utf8 "0") true 1 18446744073709551615))
  expect (!(isValidNumber (utf8 "") false 0 18446744073709551615))
  expect (isValidNumber (utf8 "") true 0 18446744073709551615)
  expect (isValidNumber (utf8 "") true 0 1)
  expect (!(isValidNumber (utf8 "") false 0 256))
  expect (isValidNumber (utf8 "102131231421") false 0 18446744073709551615)
  expect (isValidNumber (utf8 "102131231421") true 0 18446744073709551615)
  expect (isValidNumber (utf8 "102131231421") true 0 102131231421)
  expect (!(isValidNumber (utf8 "102131231421") true 0 102131231420))
  expect (!(isValidNumber (utf8 "-131") false 0 18446744073709551615))
  expect (!(isValidNumber (utf8 "-131") true 0 18446744073709551615))
  expect (!(isValidNumber (utf8 "0.0") false 0 18446744073709551615))
  expect (!(isValidNumber (utf8 "0.0") true 0 18446744073709551615))
  expect (!(isValidNumber (utf8 "0,0") false 0 18446744073709551615))
  expect (!(isValidNumber (utf8 "0,0") true 0 18446744073709551615))
  expect (!(isValidNumber (utf8 ".5") false 0 18446744073709551615))
  expect (!(isValidNumber (utf8 ".5") true 0 18446744073709551615))
  expect (!(isValidNumber (utf8 "0.") false 0 18446744073709551615))
  expect (!(isValidNumber (utf8 "0.") true 0 18446744073709551615))
  expect (!(isValidNumber (utf8 "-1-23") false 0 18446744073709551615))
  expect (!(isValidNumber (utf8 "-1-23") true 0 18446744073709551615))
  expect (!(isValidNumber (utf8 "0.5") false 0 18446744073709551615))
  expect (!(isValidNumber (utf8 "0.5") true 0 18446744073709551615))
  expect (isValidNumber (utf8 "00000") false 0 18446744073709551615)
  expect (isValidNumber (utf8 "00000") true 0 18446744073709551615)
  expect (isValidNumber (utf8 "00000") true 0 1)
  expect (isValidNumber (utf8 "00000") true 0 0)
  expect (!(isValidNumber (utf8 "00000") true 1 18446744073709551615))
  expect (!(isValidNumber (utf8 "-0000") false 0 18446744073709551615))
  expect (!(isValidNumber (utf8 "-0000") true 0 18446744073709551615))
  expect (!(isValidNumber (utf8 "0000.0") false 0 18446744073709551615))
  expect (!(isValidNumber (utf8 "0000.0") true 0 18446744073709551615))
  expect (!(isValidNumber (utf8 "1 5") false 0 18446744073709551615))
  expect (!(isValidNumber (utf8 "1 5") true 0 18446744073709551615))
  expect (!(isValidNumber (utf8 " 15") false 0 18446744073709551615))
  expect (!(isValidNumber (utf8 " 15") true 0 18446744073709551615))
  expect (!(isValidNumber (utf8 "15 ") false 0 18446744073709551615))
  expect (!(isValidNumber (utf8 "15 ") true 0 18446744073709551615))

example : utilityClass_isValidNumber = .ok () := by decide +kernel

end Verif.Validation
