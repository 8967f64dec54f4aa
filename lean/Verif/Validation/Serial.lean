import Verif.Model.Serial
/-!
# The model of serial communication on the repository's own tests

These are checks of the model's fidelity (test/test_serial_comms.py), not proofs of properties.
-/
namespace Gsm.Validation

/-- The characters of `s` arrive; more are waiting after each, except perhaps after the last. -/
def arrive (s : PyStr) (more : Bool := false) : List SEvent :=
  s.mapIdx fun i c => .rx c (decide (i + 1 < s.length) || more)

-- TestNotifications.test_callback
example : (srun (arrive py!"ABC\r\n")).notified = [[py!"ABC"]] := by decide +kernel
example : (srun (arrive py!" blah blah blah \r\n12345\r\n")).notified = [[py!" blah blah blah ", py!"12345"]] := by decide +kernel

-- TestSerialException.test_readLoopException
example : (srun []).alive = true := by decide +kernel
example : (srun ([.fail] ++ arrive py!"12345\r\n")).alive = false ∧ (srun ([.fail] ++ arrive py!"12345\r\n")).notified = [] := by decide +kernel

-- TestWrite.test_write
example : (srun ([.start none] ++ arrive py!"OK\r\n" ++ [.finish, .start none] ++ arrive py!"ERROR\r\n" ++ [.finish, .start none]
      ++ arrive py!"first line\r\nsecond line\r\nOK\r\n" ++ [.finish, .start none] ++ arrive py!"COMMAND NOT SUPPORT\r\n" ++ [.finish])).outcomes
    = [.returned [py!"OK"], .returned [py!"ERROR"], .returned [py!"first line", py!"second line", py!"OK"],
       .returned [py!"COMMAND NOT SUPPORT"]] := by decide +kernel

-- TestWrite.test_writeTimeout, test_writeTimeout_noData
example : (srun [.start none, .expire]).outcomes = [.timeout none] := by decide +kernel

-- TestWrite.test_writeTimeout_data
example : (srun ([.start none] ++ arrive py!"abc\r\n" ++ [.expire] ++ arrive py!"def\r\n")).outcomes = [.timeout (some [py!"abc"])] := by
  decide +kernel

end Gsm.Validation
