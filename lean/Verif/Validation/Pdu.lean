import Verif.Model.Pdu
/-!
# The PDU model on the repository's own test vectors

These are checks of the model's fidelity (test/test_pdu.py), not proofs of properties.
-/
namespace Gsm.Validation

def okIs {α} [DecidableEq α] (x : Except PyErr α) (a : α) : Bool :=
  match x with
  | .ok b => decide (b = a)
  | .error _ => false

def submitHex (x : Except PyErr (List Pdu)) : Option (List PyStr) :=
  match x with
  | .ok ps => some (ps.map fun p => pduHex p.data)
  | .error _ => none

/-- Fields of a decoded PDU as the tests look at them. -/
def bodyText : SmsBody → Option PyStr
  | .deliver _ _ _ ud => some ud.text
  | .submit _ _ _ _ ud => some ud.text
  | .statusReport .. => none
def bodyNumber : SmsBody → Option PyStr
  | .deliver n .. => n
  | .submit _ n .. => n
  | .statusReport _ n .. => n

def summary (s : PyStr) : Option (Option PyStr × Option PyStr × Option PyStr) :=
  match decodeSmsPdu s with
  | .ok d => some (d.smsc, bodyNumber d.body, bodyText d.body)
  | .error _ => none

/-- Time zone offset in hours. -/
def tz (h : Int) : Option Timedelta := some (.ofSeconds (h * 3600))

attribute [local instance] asciiUnicode

-- test_encodeSmsSubmit
example : submitHex (encodeSmsSubmitPdu (py!"+27820001111") (py!"Hello World!") 0 .none none false false)
  = some [py!"0001000B917228001011F100000CC8329BFD065DDF72363904"] := by decide +kernel
example : submitHex (encodeSmsSubmitPdu (py!"+27820001111") (py!"Flash SMS") 0 .none none false true)
  = some [py!"0005000B917228001011F10000094676788E064D9B53"] := by decide +kernel
example : submitHex (encodeSmsSubmitPdu (py!"+123456789") (py!"世界您好！") 0
    (.relative (.ofSeconds (52 * 7 * 86400))) (some (py!"+44000000000")) false false)
  = some [py!"07914400000000F01100099121436587F90008F40A4E16754C60A8597DFF01"] := by decide +kernel
example : submitHex (encodeSmsSubmitPdu (py!"0126541234") (py!"Test message: local numbers") 13
    (.relative (.ofSeconds (3 * 86400))) (some (py!"12345")) true false)
  = some [py!"04A12143F5310D0AA110624521430000A91BD4F29C0E6A97E7F3F0B9AC03B1DFE3301BE4AEB7C565F91C"] := by
  decide +kernel
example : submitHex (encodeSmsSubmitPdu (py!"+27820001111") (py!"Timestamp validity test") 0
    (.absolute ⟨2013, 7, 10, 13, 39, 0, 0, tz 2⟩) none false false)
  = some [py!"0019000B917228001011F100003170013193008017D474BB3CA787DB70903DCC4E93D3F43C885E9ED301"] := by
  decide +kernel

-- test_encodeSmsSubmit_concatenated
example : submitHex (encodeSmsSubmitPdu (py!"+15125551234") (py!"Lorem ipsum dolor sit amet, consectetur adipisicing elit, sed do eiusmod tempor incididunt ut labore et dolore magna aliqua.Ut enim ad minim veniam, quinostrud exercitation ullamco laboris nisi ut aliquip ex ea commodo consequat.Duis aute irure dolor in reprehenderit in voluptate velit esse cillum doloe eu fugiat nulla pariatur.Excepteur sint occaecat cupidatat non proident, sunt in culpa qui officia deserunt mollit anim id est laborum") 0 .none none false true)
  = some [py!"0045000B915121551532F40000A0050003000301986F79B90D4AC3E7F53688FC66BFE5A0799A0E0AB7CB741668FC76CFCB637A995E9783C2E4343C3D4F8FD3EE33A8CC4ED359A079990C22BF41E5747DDE7E9341F4721BFE9683D2EE719A9C26D7DD74509D0E6287C56F791954A683C86FF65B5E06B5C36777181466A7E3F5B0AB4A0795DDE936284C06B5D3EE741B642FBBD3E1360B14AFA7DD",
    py!"0045000B915121551532F40000A0050003000302DE73BABC4E0695F165F9384D0FD3D36F37A8CE6687DBE337881D16BFE5E939C89D9EA741753A28CC4EC7EB6938A88C0795C3A0F1BBDD7E93DFA0F1DB3D2FC7EB61BA8B584FCF41E13ABD0C4ACBEBF23288FC66BFE5A0B41B242FC3E56574D94D2ECBD37450DA0DB2BFD975383D4C2F83EC65769A0E2ACFE765D038CD66D7DB20F29BFD2E83CA",
    py!"0045000B915121551532F400008C050003000303EA2073FD9C0ED341EE3A9B1D06C1C3F274985E97BB8AF871194E2FD7E5A079DA4D07BDC7E370791CA683C675789A1CA687E920F7DB0D82CBDF6972D94D6781E675371D947683C675363C0C8AD7D3A0B7D99C1EA7C32072795E96D7DD7450FBCD66A7E9A0B03BDD06A5C9A0F29C0E6287C56F79BD0D"] := by
  decide +kernel

-- test_decode
example : decodeSmsPdu (py!"06917228195339040B917228214365F700003130805120618005D4F29C2E03") =
  .ok ⟨some (py!"+2782913593"), 24, .deliver (some (py!"+27821234567")) 0 ⟨2013, 3, 8, 15, 2, 16, 0, tz 2⟩
    ⟨none, py!"Test2"⟩⟩ := by decide +kernel
example : summary py!"07915892000000F0040B915892214365F700007040213252242331493A283D0795C3F33C88FE06C9CB6132885EC6D341EDF27C1E3E97E7207B3A0C0A5241E377BB1D7693E72E"
  = some (some (py!"+85290000000"), some (py!"+85291234567"), some (py!"It is easy to read text messages via AT commands.")) := by
  decide +kernel
example : summary py!"06917228195339040B917228214365F70000313062315352800A800D8A5E98D337A910"
  = some (some (py!"+2782913593"), some (py!"+27821234567"), some (py!"@{tést}!")) := by decide +kernel
example : decodeSmsPdu (py!"07911326040000F0310D0B911326880736F40000A90FF7FBDD454E87CDE1B0DB357EB701") =
  .ok ⟨some (py!"+31624000000"), 28, .submit 13 (some (py!"+31628870634")) 0 (.relative (.ofSeconds (3*86400)))
    ⟨none, py!"www.diafaan.com"⟩⟩ := by decide +kernel
example : decodeSmsPdu (py!"0006D60B911326880736F4111011719551401110117195714000") =
  .ok ⟨none, 25, .statusReport 214 (some (py!"+31628870634")) ⟨2011, 1, 11, 17, 59, 15, 0, tz 1⟩
    ⟨2011, 1, 11, 17, 59, 17, 0, tz 1⟩ 0⟩ := by decide +kernel
example : summary py!"0591721891F1400781721881F800003160526104848059050003C30101916536FB1DCABEEB2074D85E064941B19CAB060319A5C522289C96D3D3ED32286C0FA7D96131BBEC024941B19CAB0603DDD36C36A88C87A7E565D0DB0D82C55EB0DB4B068BCD5C20"
  = some (some (py!"+2781191"), some (py!"2781188"), some (py!"Hello!You have R 19.50 FREE airtime available. R 19.50 will expire on 01/07/2013. ")) := by
  decide +kernel
example : summary py!"07914346466554F601000B914316565811F9000806304253F68449"
  = some (some (py!"+34646456456"), some (py!"+34616585119"), some (py!"あ叶葉")) := by decide +kernel
example : decodeSmsPdu (py!"0041010C910661345542F60008A0050003000301306F3044") =
  .ok ⟨none, 23, .submit 1 (some (py!"+60164355246")) 0 .absent
    ⟨some [⟨0, 3, [0, 3, 1], .concatenation 0 3 1⟩], py!"はい"⟩⟩ := by decide +kernel
example : summary py!"0591721891F101000B917228214365F700040C48656C6C6F20776F726C6421"
  = some (some (py!"+2781191"), some (py!"+27821234567"), some (py!"Hello world!")) := by decide +kernel
example : decodeSmsPdu (py!"0297F1061C0F910B487228297020F5317062419272803170624192138000") =
  .ok ⟨some (py!"+1"), 27, .statusReport 28 (some (py!"+b08427829207025")) ⟨2013, 7, 26, 14, 29, 27, 0, tz 2⟩
    ⟨2013, 7, 26, 14, 29, 31, 0, tz 2⟩ 0⟩ := by decide +kernel
example : summary py!"07919762020033F1400DD0CDF2396C7EBB010008415072411084618C0500035602010053004D005300200063006F00640065003A00200034003800350036002C00200063006F006E006600690072006D006100740069006F006E0020006F00660020006100730073006F00630069006100740069006F006E0020006200650074007700650065006E0020006100630063006F0075006E007400200061006E00640020004D00650067"
  = some (some (py!"+79262000331"), some (py!"Megafon"), some (py!"SMS code: 4856, confirmation of association between account and Meg")) := by
  decide +kernel

-- address fields (TestSmsPduAddressFields, TestSmsPduSmscFields)
example : okIs (encodeAddressField (py!"a[]{}€")) ((unhex (py!"14D0E10D6FE3DBA036A94D19")).getD []) := by decide +kernel
example : okIs (encodeAddressField (py!"FRANCOIS")) ((unhex (py!"0ED04669D0397C26A7")).getD []) := by decide +kernel
example : okIs (encodeAddressField (py!"0129998765")) ((unhex (py!"0AA11092997856")).getD []) := by decide +kernel
example : okIs (encodeAddressField (py!"+987654321") true) ((unhex (py!"069189674523F1")).getD []) := by decide +kernel
example : okIs (decodeAddressField ((unhex (py!"06D061F118D3F1FF0032")).getD []))
  ((some (py!"abc"), 5), (unhex (py!"D3F1FF0032")).getD []) := by decide +kernel

-- validity, timestamps, UDH
example : okIs (encodeRelativeValidityPeriod (.ofSeconds (16*3600))) 151 ∧
  okIs (encodeRelativeValidityPeriod (.ofSeconds (35*86400))) 197 ∧
  okIs (decodeRelativeValidityPeriod 169) (.ofSeconds (3*86400)) := by decide +kernel
example : okIs (encodeTimestamp ⟨2007, 4, 12, 23, 25, 42, 0, tz (-8)⟩) ((unhex (py!"7040213252242B")).getD []) ∧
  okIs (decodeTimestamp ((unhex (py!"7040213252242B")).getD [])) (⟨2007, 4, 12, 23, 25, 42, 0, tz (-8)⟩, []) := by
  decide +kernel
example : encodeConcatenation 384 4 2 = .ok ((unhex (py!"080401800402")).getD []) ∧
  encodePortAddress 1234 5222 = .ok ((unhex (py!"050404D21466")).getD []) := by decide +kernel

end Gsm.Validation
