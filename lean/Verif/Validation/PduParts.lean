import Verif.Validation.Pdu
/-!
# The parts of the PDU model on the repository's own test vectors

The remaining vectors of test/test_pdu.py; checks of the model's fidelity, not proofs of properties.
-/
namespace Gsm.Validation

attribute [local instance] asciiUnicode

def failsAs {α : Type} (x : Except PyErr α) (e : PyErr) : Bool :=
  match x with
  | .ok _ => false
  | .error e' => decide (e' = e)

def hexOctets (s : PyStr) : List Nat := (unhex s).getD []

/-! ### TestSemiOctets: test_encode, test_decode, test_decodeIter -/

def semiOctetTests : List (PyStr × List Nat) :=
  [(py!"15125551234", [0x51, 0x21, 0x55, 0x15, 0x32, 0xf4]), (py!"123", [0x21, 0xf3]), (py!"1234", [0x21, 0x43])]

example : semiOctetTests.all fun (plain, encoded) => okIs (encodeSemiOctets plain) encoded := by decide +kernel
example : semiOctetTests.all fun (plain, encoded) => (decodeSemiOctets none 0 encoded).1 = plain := by decide +kernel
example : (decodeSemiOctets (some 9) 0 (hexOctets py!"1032547698")).1 = py!"0123456789" := by decide +kernel

/-! ### TestGsm7: test_encode, test_decode, test_packSeptets, test_unpackSeptets_no_limits, test_unpackSeptets_with_limits -/

def gsm7Tests : List (PyStr × List Nat × List Nat) :=
  [(py!"123", py!"123", [49, 217, 12]),
   (py!"12345678", py!"12345678", [49, 217, 140, 86, 179, 221, 112]),
   (py!"123456789", py!"123456789", [49, 217, 140, 86, 179, 221, 112, 57]),
   (py!"Hello World!", [0x48, 0x65, 0x6C, 0x6C, 0x6F, 0x20, 0x57, 0x6F, 0x72, 0x6C, 0x64, 0x21], [200, 50, 155, 253, 6, 93, 223, 114, 54, 57, 4]),
   (py!"[{abc}]~", [0x1B, 0x3C, 0x1B, 0x28, 0x61, 0x62, 0x63, 0x1B, 0x29, 0x1B, 0x3E, 0x1B, 0x3D], [27, 222, 6, 21, 22, 143, 55, 169, 141, 111, 211, 3]),
   (py!"123456789012345678901234567890",
     [49, 50, 51, 52, 53, 54, 55, 56, 57, 48, 49, 50, 51, 52, 53, 54, 55, 56, 57, 48, 49, 50, 51, 52, 53, 54, 55, 56, 57, 48],
     [49, 217, 140, 86, 179, 221, 112, 57, 88, 76, 54, 163, 213, 108, 55, 92, 14, 22, 147, 205, 104, 53, 219, 13, 151, 131, 1]),
   (py!"{åΦΓΛΩΠΨΣΘ€}", [27, 40, 15, 18, 19, 20, 21, 22, 23, 24, 25, 27, 101, 27, 41], [27, 212, 67, 50, 161, 84, 44, 23, 76, 102, 83, 222, 164, 0]),
   (py!"a[]{}€", [97, 27, 60, 27, 62, 27, 40, 27, 41, 27, 101], [225, 13, 111, 227, 219, 160, 54, 169, 77, 25])]

example : gsm7Tests.all fun (plain, encoded, _) => okIs (encodeGsm7 plain) encoded := by decide +kernel
example : gsm7Tests.all fun (plain, encoded, _) => okIs (decodeGsm7 encoded) plain := by decide +kernel
example : gsm7Tests.all fun (_, encoded, septets) => okIs (packSeptets encoded) septets := by decide +kernel
example : gsm7Tests.all fun (_, encoded, septets) => okIs ((unpackSeptets septets).map (·.1)) encoded := by decide +kernel
example : gsm7Tests.all fun (_, encoded, septets) => okIs ((unpackSeptets (septets ++ [7, 200, 31, 255]) (some septets.length)).map (·.1)) encoded := by decide +kernel

-- test_encodeInvalid, test_encodeInvalidDiscard
example : failsAs (encodeGsm7 py!"世界您好！" false) .valueError := by decide +kernel
example : okIs (encodeGsm7 py!"a世界b您c好！" true) [97, 98, 99] := by decide +kernel

/-! ### TestUcs2: test_encode, test_decode -/

def ucs2Tests : List (PyStr × List Nat) := [(py!"あ叶葉", [0x30, 0x42, 0x53, 0xF6, 0x84, 0x49]), (py!"はい", [0x30, 0x6F, 0x30, 0x44])]

example : ucs2Tests.all fun (plain, encoded) => okIs (encodeUcs2 plain) encoded := by decide +kernel
example : ucs2Tests.all fun (plain, encoded) => (decodeUcs2 encoded encoded.length).1 = plain := by decide +kernel

/-! ### TestSmsPduAddressFields: test_decodeAddressField, test_encodeAddressField -/

def addressTests : List (PyStr × Nat × PyStr × PyStr) :=
  [(py!"+9876543210", 7, py!"0A918967452301", py!"0A918967452301"),
   (py!"+9876543210", 7, py!"0A918967452301000000", py!"0A918967452301"),
   (py!"+987654321", 7, py!"099189674523F1000000", py!"099189674523F1"),
   (py!"+27829135934", 8, py!"0B917228195339F4", py!"0B917228195339F4"),
   (py!"abc", 5, py!"06D061F118", py!"06D061F118"),
   (py!"abc", 5, py!"06D061F118D3F1FF0032", py!"06D061F118"),
   (py!"FRANCOIS", 9, py!"0ED04669D0397C26A7", py!"0ED04669D0397C26A7"),
   (py!"a[]{}€", 12, py!"14D0E10D6FE3DBA036A94D19", py!"14D0E10D6FE3DBA036A94D19"),
   (py!"0129998765", 7, py!"0AA11092997856", py!"0AA11092997856")]

def readsField (smsc : Bool) (t : PyStr × Nat × PyStr × PyStr) : Bool :=
  match decodeAddressField (hexOctets t.2.2.1) smsc with
  | .ok ((v, n), _) => decide (v = some t.1 ∧ n = t.2.1)
  | .error _ => false

example : addressTests.all (readsField false) := by decide +kernel
example : addressTests.all fun t => okIs (encodeAddressField t.1) (hexOctets t.2.2.2) := by decide +kernel

/-! ### TestSmsPduSmscFields: test_decodeSmscField, test_encodeSmscField -/

def smscTests : List (PyStr × Nat × PyStr × PyStr) :=
  [(py!"+9876543210", 7, py!"06918967452301", py!"06918967452301"),
   (py!"+9876543210", 7, py!"06918967452301000000", py!"06918967452301"),
   (py!"+987654321", 7, py!"069189674523F1000000", py!"069189674523F1"),
   (py!"+2782913593", 7, py!"06917228195339", py!"06917228195339")]

example : smscTests.all (readsField true) := by decide +kernel
example : smscTests.all fun t => okIs (encodeAddressField t.1 true) (hexOctets t.2.2.2) := by decide +kernel

/-! ### TestRelativeValidityPeriod: test_encode, test_decode, test_decode_invalidTpVp, test_encode_validityPeriodTooLong -/

def validityTests : List (Int × Nat) := [(30 * 60, 5), (16 * 3600, 151), (3 * 86400, 169), (35 * 86400, 197)]

example : validityTests.all fun (v, n) => okIs (encodeRelativeValidityPeriod (.ofSeconds v)) (n : Int) := by decide +kernel
example : validityTests.all fun (v, n) => okIs (decodeRelativeValidityPeriod n) (.ofSeconds v) := by decide +kernel
example : failsAs (decodeRelativeValidityPeriod 2048) .valueError := by decide +kernel
example : failsAs (encodeRelativeValidityPeriod (.ofSeconds (1000 * 7 * 86400))) .valueError := by decide +kernel

/-! ### TestTimestamp: test_encode, test_decode, test_encode_noTimezone; TestSmsPduTzInfo: test_utcoffset -/

def timestampTests : List (DateTime × PyStr) :=
  [(⟨2015, 11, 27, 0, 0, 0, 0, tz 0⟩, py!"51117200000000"), (⟨2015, 11, 27, 0, 0, 0, 0, tz 2⟩, py!"51117200000080"),
   (⟨2007, 4, 12, 23, 25, 42, 0, tz 8⟩, py!"70402132522423"), (⟨2007, 4, 12, 23, 25, 42, 0, tz (-8)⟩, py!"7040213252242B")]

example : timestampTests.all fun (t, hex) => okIs (encodeTimestamp t) (hexOctets hex) := by decide +kernel
example : timestampTests.all fun (t, hex) => okIs (decodeTimestamp (hexOctets hex)) (t, []) := by decide +kernel
example : failsAs (encodeTimestamp ⟨2013, 3, 1, 12, 30, 21, 0, none⟩) .valueError := by decide +kernel
example : okIs (pduTzOffset py!"08") (.ofSeconds (2 * 3600)) ∧ okIs (pduTzOffset py!"B2") (.ofSeconds (-8 * 3600)) := by decide +kernel

/-! ### TestUdhConcatenation, TestUdhPortAddress -/

example : okIs (encodeConcatenation 23 3 1) (hexOctets py!"0003170301") ∧ okIs (encodeConcatenation 384 4 2) (hexOctets py!"080401800402") := by decide +kernel
example : encodeConcatenation 24 3 1 ≠ .ok (hexOctets py!"0003170301") := by decide +kernel
example : okIs (encodePortAddress 100 50) (hexOctets py!"04026432") ∧ okIs (encodePortAddress 1234 5222) (hexOctets py!"050404D21466") := by decide +kernel

/-! ### TestSmsPdu: test_decode_invalidPduType, test_decode_invalidData -/

example : failsAs (decodeSmsPdu py!"0043010C910661345542F60008A0050003000301306F3044") .encodingError := by decide +kernel
example : failsAs (decodeSmsPdu py!"AFSDSDF LJJFKLDJKLFJ# #$KJLKJL SF") .encodingError := by decide +kernel
example : failsAs (decodeSmsPdu py!"AEFDSDFSDFSDFS") .encodingError := by decide +kernel

end Gsm.Validation
