import Verif.Model.ModemCalls
/-!
# The simulated modems of the repository's tests

test/fakemodems.py as values of `Env`, for the checks of the model's fidelity in the other files of this
directory. The tables of responses were copied from the Python source mechanically.
-/
namespace Gsm.Validation

/-- A descriptor of a simulated modem; lines are without their `\r\n`. -/
structure Fake where
  responses : List (PyStr × List PyStr)
  noPin : List PyStr := []                      -- `commandsNoPinRequired`
  simBusyCommands : List PyStr := []            -- `commandsSimBusy`
  simBusy : Nat := 0                            -- `simBusyErrorCounter`
  pinLock : Bool := false
  smsc : Option PyStr := none
  cfun : Int := 1
  cpinOk : Bool := true                         -- the answer to `AT+CPIN?` ends with `OK`
  slowCfun : Bool := false                      -- `WavecomMultiband900E1800.getResponse`
  ussdMode : Bool := false                      -- `HuaweiE1752.getResponse`
  forgetsSmsc : Bool := false                   -- `QualcommM6280.getResponse`, `ZteK3565Z.getResponse`

/-- What changes while it runs. -/
structure FakeState where
  locked : Bool
  simBusy : Nat
  deviceBusy : Nat := 0
  smsc : Option PyStr
  ussdPdu : Bool := true

/-- `FakeModem.getResponse`, fakemodems.py:23-46. -/
def Fake.base (f : Fake) (st : FakeState) (cmd : PyStr) : FakeState × List PyStr :=
  if st.deviceBusy > 0 then ({ st with deviceBusy := st.deviceBusy - 1 }, [py!"+CME ERROR: 515"])
  else if st.locked && !py!"AT+CPIN".isPrefixOf cmd && !f.noPin.contains cmd then (st, [py!"+CME ERROR: 11"])
  else if !py!"AT+CPIN=\"".isPrefixOf cmd && st.simBusy > 0 && f.simBusyCommands.contains cmd then
    ({ st with simBusy := st.simBusy - 1 }, [py!"+CME ERROR: 14"])
  else
    let st := if py!"AT+CPIN=\"".isPrefixOf cmd then { st with locked := false } else st
    (st,
      if cmd = py!"AT+CFUN?\r" ∧ f.cfun ≠ -1 then [py!"+CFUN: " ++ intStr f.cfun, py!"OK"]
      else if cmd = py!"AT+CSCA?\r" then
        match st.smsc with
        | some n => [py!"+CSCA: \"" ++ n ++ py!"\",145", py!"OK"]
        | none => [py!"OK"]
      else if cmd = py!"AT+CPIN?\r" then
        (if st.locked then py!"+CPIN: SIM PIN" else py!"+CPIN: READY") :: (if f.cpinOk then [py!"OK"] else [])
      else (f.responses.lookup cmd).getD [py!"OK"])

/-- `getResponse` with what the descriptors add to it. -/
def Fake.step (f : Fake) (st : FakeState) (cmd : PyStr) : FakeState × List PyStr :=
  if f.slowCfun && cmd == py!"AT+CFUN=1\r" then ({ st with deviceBusy := 2 }, [py!"OK"])
  else if f.ussdMode && py!"AT+CUSD=1".isPrefixOf cmd && st.ussdPdu then (st, [py!"ERROR"])
  else
    let st := if f.ussdMode && py!"AT^USSDMODE=".isPrefixOf cmd then { st with ussdPdu := cmd[12]? == some 49 } else st
    let st := if f.forgetsSmsc && !st.locked && py!"AT+CSMP=".isPrefixOf cmd then { st with smsc := none } else st
    f.base st cmd

/-- The answer to the last of a list of commands. -/
def Fake.answer (f : Fake) (st : FakeState) : List PyStr → List PyStr
  | [] => []
  | [cmd] => (f.step st cmd).2
  | cmd :: cmds => f.answer (f.step st cmd).1 cmds

def isTerm (line : PyStr) : Bool :=
  line == py!"OK" || line == py!"> " || line == py!"ERROR" || line == py!"COMMAND NOT SUPPORT" || py!"+CME ERROR: ".isPrefixOf line ||
    py!"+CMS ERROR: ".isPrefixOf line

/-- What the lines are for `write`: a response, or a time-out if nothing ends it. -/
def replyOf (lines : List PyStr) : Reply :=
  match lines with
  | [] => .timeout none
  | _ => if lines.any isTerm then .lines lines else .timeout (some lines)

/-- The modem; `script` takes precedence (`serial.responseSequence` in the tests). -/
def Fake.env (f : Fake) (script : List PyStr → Option (List PyStr) := fun _ => none) : Env where
  reply log := replyOf ((script log).getD (f.answer ⟨f.pinLock, f.simBusy, 0, f.smsc, true⟩ log.reverse))
  depth := 50
  order l := l
  order_perm _ := .refl _

/-- `self.responses[cmd] = …`. -/
def Fake.respond (f : Fake) (cmd : PyStr) (ls : List PyStr) : Fake := { f with responses := (cmd, ls) :: f.responses }

/-- The state after `connect`. -/
def Fake.connected (f : Fake) : St := (connect none f.env {}).2

/-- The answers to the commands that follow those in `s`. -/
def after (s : St) (answers : List (List PyStr)) : List PyStr → Option (List PyStr) := fun log =>
  if log.length ≤ s.log.length then none else answers[log.length - s.log.length - 1]?

/-- The commands written since `s`, oldest first. -/
def written (s s' : St) : List PyStr := (s'.log.take (s'.log.length - s.log.length)).reverse

/-- `GenericTestModem`, fakemodems.py:88-139. -/
def generic : Fake where
  responses := [
    (py!"AT+CPMS=?\r", [
      py!"+CPMS: (\"ME\",\"MT\",\"SM\",\"SR\"),(\"ME\",\"MT\",\"SM\",\"SR\"),(\"ME\",\"MT\",\"SM\",\"SR\")",
      py!"OK"]),
    (py!"AT+CLAC\r", [py!"ERROR"]),
    (py!"AT+WIND?\r", [py!"ERROR"]),
    (py!"AT+WIND=50\r", [py!"ERROR"]),
    (py!"AT+ZPAS?\r", [py!"ERROR"])]
  noPin := [py!"ATZ\r", py!"ATE0\r", py!"AT+CFUN?\r", py!"AT+CFUN=1\r", py!"AT+CMEE=1\r"]

/-- `WavecomMultiband900E1800`, fakemodems.py:142-206. -/
def wavecom : Fake where
  responses := [
    (py!"AT+CGMI\r", [py!" WAVECOM MODEM", py!"OK"]),
    (py!"AT+CGMM\r", [py!" MULTIBAND  900E  1800", py!"OK"]),
    (py!"AT+CGMR\r", [py!"ERROR"]),
    (py!"AT+CIMI\r", [py!"111111111111111", py!"OK"]),
    (py!"AT+CGSN\r", [py!"111111111111111", py!"OK"]),
    (py!"AT+CLAC\r", [py!"ERROR"]),
    (py!"AT+WIND?\r", [py!"+WIND: 0", py!"OK"]),
    (py!"AT+WIND=50\r", [py!"OK"]),
    (py!"AT+ZPAS?\r", [py!"ERROR"]),
    (py!"AT+CPMS=\"SM\",\"SM\",\"SR\"\r", [py!"ERROR"]),
    (py!"AT+CPMS=?\r", [py!"+CPMS: ((\"SM\",\"BM\",\"SR\"),(\"SM\"))", py!"OK"]),
    (py!"AT+CPMS=\"SM\",\"SM\"\r", [py!"+CPMS: 14,50,14,50", py!"OK"]),
    (py!"AT+CNMI=2,1,0,2\r", [py!"OK"]),
    (py!"AT+CVHU=0\r", [py!"ERROR"])]
  noPin := [py!"ATZ\r", py!"ATE0\r", py!"AT+CFUN?\r", py!"AT+CFUN=1\r", py!"AT+CMEE=1\r"]
  slowCfun := true
  cpinOk := false

/-- `HuaweiK3715`, fakemodems.py:209-261. -/
def huaweiK3715 : Fake where
  responses := [
    (py!"AT+CGMI\r", [py!"huawei", py!"OK"]),
    (py!"AT+CGMM\r", [py!"K3715", py!"OK"]),
    (py!"AT+CGMR\r", [py!"11.104.05.00.00", py!"OK"]),
    (py!"AT+CIMI\r", [py!"111111111111111", py!"OK"]),
    (py!"AT+CGSN\r", [py!"111111111111111", py!"OK"]),
    (py!"AT+CPMS=?\r", [
      py!"+CPMS: (\"ME\",\"MT\",\"SM\",\"SR\"),(\"ME\",\"MT\",\"SM\",\"SR\"),(\"ME\",\"MT\",\"SM\",\"SR\")",
      py!"OK"]),
    (py!"AT+WIND?\r", [py!"ERROR"]),
    (py!"AT+WIND=50\r", [py!"ERROR"]),
    (py!"AT+ZPAS?\r", [py!"ERROR"]),
    (py!"AT+CLAC\r", [
      py!"+CLAC:&C,&D,&E,&F,&S,&V,&W,E,I,L,M,Q,V,X,Z,T,P,\\S,\\V,%V,D,A,H,O,S0,S2,S3,S4,S5,S6,S7,S8,S9,S10,S11,S30,S103,S104,+FCLASS,+ICF,+IFC,+IPR,+GMI,+GMM,+GMR,+GCAP,+GSN,+DR,+DS,+WS46,+CLAC,+CCLK,+CBST,+CRLP,+CV120,+CHSN,+CSSN,+CREG,+CGREG,+CFUN,+GCAP,+CSCS,+CSTA,+CR,+CEER,+CRC,+CMEE,+CGDCONT,+CGDSCONT,+CGTFT,+CGEQREQ,+CGEQMIN,+CGQREQ,+CGQMIN,+CGEQNEG,+CGEREP,+CGPADDR,+CGCLASS,+CGSMS,+CSMS,+CMGF,+CSAS,+CRES,+CSCA,+CSMP,+CSDH,+CSCB,+FDD,+FAR,+FCL,+FIT,+ES,+ESA,+CMOD,+CVHU,+CGDATA,+CSQ,+CBC,+CPAS,+CPIN,+CMEC,+CGATT,+CGACT,+CGCMOD,+CPBS,+CPBR,+CPBF,+CPBW,+CPMS,+CNMI,+CMGL,+CMGR,+CMGS,+CMSS,+CMGW,+CMGD,+CMGC,+CNMA,+CMMS,+FTS,+FRS,+FTH,+FRH,+FTM,+FRM,+CHUP,+CCFC,+CCUG,+COPS,+CLCK,+CPWD,+CUSD,+CAOC,+CACM,+CAMM,+CPUC,+CCWA,+CHLD,+CIMI,+CGMI,+CGMM,+CGMR,+CGSN,+CNUM,+CSIM,+CRSM,+CCLK,+CLVL,+CMUT,+CLCC,+COPN,+CPOL,+CPLS,+CTZR,+CTZU,+CLAC,+CLIP,+COLP,+CDIP,+CTFR,+CLIR,$QCSIMSTAT,$QCCNMI,$QCCLR,$QCDMG,$QCDMR,$QCDNSP,$QCDNSS,$QCTER,$QCSLOT,$QCPINSTAT,$QCPDPP,$QCPDPLT,$QCPWRDN,$QCDGEN,$BREW,$QCSYSMODE,^CVOICE,^DDSETEX,^pcmrecord,^SYSINFO,^SYSCFG,^IMSICHG,^HS,^DTMF,^EARST,^CDUR,^LIGHT,^CPBR,^CPBW,^HWVER,^HVER,^DSFLOWCLR,^DSFLOWQRY,^DSFLOWRPT,^SPN,^PORTSEL,^CPIN,^PNN,^OPL,^CPNN,^SN,^CARDLOCK,^BOOT,^FHVER,^CURC,^FREQLOCK,^HSDPA,^HSUPA,^CARDMODE,^U2DIAG,^CELLMODE,^HSPA,^SCSIOVERTIME,^SETPID,^ADCTEMP,^OPWORD,^CPWORD,^DISLOG,^ANQUERY,^RSCPCFG,^ECIOCFG,",
      py!"OK"])]
  noPin := [py!"ATZ\r", py!"ATE0\r", py!"AT+CFUN?\r", py!"AT+CFUN=1\r", py!"AT+CMEE=1\r"]

/-- `HuaweiE1752`, fakemodems.py:264-364. -/
def huaweiE1752 : Fake where
  responses := [
    (py!"AT+CGMI\r", [py!"huawei", py!"OK"]),
    (py!"AT+CGMM\r", [py!"E1752", py!"OK"]),
    (py!"AT+CGMR\r", [py!"11.126.13.00.00", py!"OK"]),
    (py!"AT+CIMI\r", [py!"111111111111111", py!"OK"]),
    (py!"AT+CGSN\r", [py!"111111111111111", py!"OK"]),
    (py!"AT+CPMS=?\r", [
      py!"+CPMS: (\"ME\",\"MT\",\"SM\",\"SR\"),(\"ME\",\"MT\",\"SM\",\"SR\"),(\"ME\",\"MT\",\"SM\",\"SR\")",
      py!"OK"]),
    (py!"AT+WIND?\r", [py!"COMMAND NOT SUPPORT"]),
    (py!"AT+WIND=50\r", [py!"COMMAND NOT SUPPORT"]),
    (py!"AT+ZPAS?\r", [py!"COMMAND NOT SUPPORT"]),
    (py!"AT+CLAC\r", [
      py!"&C\r", py!"&D\r", py!"&F\r", py!"&V\r", py!"E\r", py!"I\r", py!"L\r", py!"M\r", py!"Q\r", py!"V\r",
      py!"X\r", py!"Z\r", py!"T\r", py!"P\r", py!"D\r", py!"A\r", py!"H\r", py!"O\r", py!"S0\r", py!"S2\r",
      py!"S3\r", py!"S4\r", py!"S5\r", py!"S6\r", py!"S7\r", py!"S8\r", py!"S9\r", py!"S10\r", py!"S11\r",
      py!"S30\r", py!"S103\r", py!"S104\r", py!"+FCLASS\r", py!"+ICF\r", py!"+IFC\r", py!"+IPR\r",
      py!"+GMI\r", py!"+GMM\r", py!"+GMR\r", py!"+GCAP\r", py!"+GSN\r", py!"+DR\r", py!"+DS\r", py!"+WS46\r",
      py!"+CLAC\r", py!"+CCLK\r", py!"+CBST\r", py!"+CRLP\r", py!"+CV120\r", py!"+CHSN\r", py!"+CSSN\r",
      py!"+CREG\r", py!"+CGREG\r", py!"+CFUN\r", py!"+GCAP\r", py!"+CSCS\r", py!"+CSTA\r", py!"+CR\r",
      py!"+CEER\r", py!"+CRC\r", py!"+CMEE\r", py!"+CGDCONT\r", py!"+CGDSCONT\r", py!"+CGTFT\r",
      py!"+CGEQREQ\r", py!"+CGEQMIN\r", py!"+CGQREQ\r", py!"+CGQMIN\r", py!"+CGEQNEG\r", py!"+CGEREP\r",
      py!"+CGPADDR\r", py!"+CGCLASS\r", py!"+CGSMS\r", py!"+CSMS\r", py!"+CMGF\r", py!"+CSAS\r",
      py!"+CRES\r", py!"+CSCA\r", py!"+CSMP\r", py!"+CSDH\r", py!"+CSCB\r", py!"+FDD\r", py!"+FAR\r",
      py!"+FCL\r", py!"+FIT\r", py!"+ES\r", py!"+ESA\r", py!"+CMOD\r", py!"+CVHU\r", py!"+CGDATA\r",
      py!"+CSQ\r", py!"+CBC\r", py!"+CPAS\r", py!"+CPIN\r", py!"+CMEC\r", py!"+CKPD\r", py!"+CIND\r",
      py!"+CMER\r", py!"+CGATT\r", py!"+CGACT\r", py!"+CGCMOD\r", py!"+CPBS\r", py!"+CPBR\r", py!"+CPBF\r",
      py!"+CPBW\r", py!"+CPMS\r", py!"+CNMI\r", py!"+CMGL\r", py!"+CMGR\r", py!"+CMGS\r", py!"+CMSS\r",
      py!"+CMGW\r", py!"+CMGD\r", py!"+CMGC\r", py!"+CNMA\r", py!"+CMMS\r", py!"+FTS\r", py!"+FRS\r",
      py!"+FTH\r", py!"+FRH\r", py!"+FTM\r", py!"+FRM\r", py!"+CHUP\r", py!"+CCFC\r", py!"+CCUG\r",
      py!"+COPS\r", py!"+CLCK\r", py!"+CPWD\r", py!"+CUSD\r", py!"+CAOC\r", py!"+CACM\r", py!"+CAMM\r",
      py!"+CPUC\r", py!"+CCWA\r", py!"+CHLD\r", py!"+CIMI\r", py!"+CGMI\r", py!"+CGMM\r", py!"+CGMR\r",
      py!"+CGSN\r", py!"+CNUM\r", py!"+CSIM\r", py!"+CRSM\r", py!"+CCLK\r", py!"+CLVL\r", py!"+CMUT\r",
      py!"+CLCC\r", py!"+COPN\r", py!"+CPOL\r", py!"+CPLS\r", py!"+CTZR\r", py!"+CTZU\r", py!"+CLAC\r",
      py!"+CLIP\r", py!"+COLP\r", py!"+CDIP\r", py!"+CTFR\r", py!"+CLIR\r", py!"$QCSIMSTAT\r",
      py!"$QCCNMI\r", py!"$QCCLR\r", py!"$QCDMG\r", py!"$QCDMR\r", py!"$QCDNSP\r", py!"$QCDNSS\r",
      py!"$QCTER\r", py!"$QCSLOT\r", py!"$QCPINSTAT\r", py!"$QCPDPP\r", py!"$QCPDPLT\r", py!"$QCPWRDN\r",
      py!"$QCDGEN\r", py!"$BREW\r", py!"$QCSYSMODE\r", py!"$QCCTM\r", py!"^RFSWITCH\r", py!"^SOFTSWITCH\r",
      py!"^FLIGHTMODESAVE\r", py!"^IMSICHG\r", py!"^STSF\r", py!"^STGI\r", py!"^STGR\r", py!"^CELLMODE\r",
      py!"^SYSINFO\r", py!"^DIALMODE\r", py!"^SYSCFG\r", py!"^SYSCONFIG\r", py!"^HS\r", py!"^DTMF\r",
      py!"^CPBR\r", py!"^CPBW\r", py!"^HWVER\r", py!"^HVER\r", py!"^DSFLOWCLR\r", py!"^DSFLOWQRY\r",
      py!"^DSFLOWRPT\r", py!"^SPN\r", py!"^PORTSEL\r", py!"^CPIN\r", py!"^SN\r", py!"^EARST\r",
      py!"^CARDLOCK\r", py!"^CARDUNLOCK\r", py!"^ATRECORD\r", py!"^CDUR\r", py!"^BOOT\r", py!"^FHVER\r",
      py!"^CURC\r", py!"^FREQLOCK\r", py!"^FREQPREF\r", py!"^HSPA\r", py!"^HSUPA\r", py!"^GPSTYPE\r",
      py!"^HSDPA\r", py!"^GLASTERR\r", py!"^CARDMODE\r", py!"^U2DIAG\r", py!"^RSTRIGGER\r", py!"^SETPID\r",
      py!"^SCSITIMEOUT\r", py!"^CQI\r", py!"^GETPORTMODE\r", py!"^CVOICE\r", py!"^DDSETEX\r",
      py!"^pcmrecord\r", py!"^CSNR\r", py!"^CMSR\r", py!"^CMMT\r", py!"^CMGI\r", py!"^RDCUST\r",
      py!"^OPWORD\r", py!"^CPWORD\r", py!"^DISLOG\r", py!"^FPLMN\r", py!"^FPLMNCTRL\r", py!"^ANQUERY\r",
      py!"^RSCPCFG\r", py!"^ECIOCFG\r", py!"^IMSICHECK\r", py!"^USSDMODE\r", py!"^SLOTCFG\r", py!"^YJCX\r",
      py!"^NDISDUP\r", py!"^DHCP\r", py!"^AUTHDATA\r", py!"^CRPN\r", py!"^ICCID\r", py!"^NVMBN\r",
      py!"^RXDIV\r", py!"^DNSP\r", py!"^DNSS\r", py!"^WPDST\r", py!"^WPDOM\r", py!"^WPDFR\r", py!"^WPQOS\r",
      py!"^WPDSC\r", py!"^WPDGP\r", py!"^WPEND\r", py!"^WNICT\r", py!"^SOCKETCONT\r", py!"^WPURL\r",
      py!"^WMOLR\r", py!"^SECTIME\r", py!"^WPDNP\r", py!"^WPDDL\r", py!"^WPDCP\r", py!"OK"])]
  noPin := [py!"ATZ\r", py!"ATE0\r", py!"AT+CFUN?\r", py!"AT+CFUN=1\r", py!"AT+CMEE=1\r"]
  ussdMode := true

/-- `QualcommM6280`, fakemodems.py:367-430. -/
def qualcomm : Fake where
  responses := [
    (py!"AT+CGMI\r", [py!"QUALCOMM INCORPORATED", py!"OK"]),
    (py!"AT+CGMM\r", [py!"M6280", py!"OK"]),
    (py!"AT+CGMR\r", [py!"M6280_V1.0.0 M6280_V1.0.0 1 [Sep 4 2008 12:00:00]", py!"OK"]),
    (py!"AT+CIMI\r", [py!"111111111111111", py!"OK"]),
    (py!"AT+CGSN\r", [py!"111111111111111", py!"OK"]),
    (py!"AT+CLAC\r", [py!"ERROR"]),
    (py!"AT+WIND?\r", [py!"ERROR"]),
    (py!"AT+WIND=50\r", [py!"ERROR"]),
    (py!"AT+ZPAS?\r", [py!"+BEARTYPE: \"UMTS\",\"CS_PS\"", py!"OK"]),
    (py!"AT+CPMS=?\r", [
      py!"+CPMS: (\"ME\",\"MT\",\"SM\",\"SR\"),(\"ME\",\"MT\",\"SM\",\"SR\"),(\"ME\",\"MT\",\"SM\",\"SR\")",
      py!"OK"]),
    (py!"AT+CVHU=0\r", [py!"+CVHU: (0-1)", py!"OK"])]
  simBusyCommands := [py!"AT+CSCA?\r"]
  forgetsSmsc := true

/-- `ZteK3565Z`, fakemodems.py:433-526. -/
def zte : Fake where
  responses := [
    (py!"AT+CGMI\r", [py!"ZTE INCORPORATED", py!"OK"]),
    (py!"AT+CGMM\r", [py!"K3565-Z", py!"OK"]),
    (py!"AT+CGMR\r", [py!"BD_P673A2V1.0.0B09", py!"OK"]),
    (py!"AT+CFUN?\r", [py!"+CFUN: (0-1,4-7),(0-1)", py!"OK"]),
    (py!"AT+CIMI\r", [py!"111111111111111", py!"OK"]),
    (py!"AT+CGSN\r", [py!"111111111111111", py!"OK"]),
    (py!"AT+CLAC\r", [
      py!"&C", py!"&D", py!"&E", py!"&F", py!"&S", py!"&V", py!"&W", py!"E", py!"I", py!"L", py!"M", py!"Q",
      py!"V", py!"X", py!"Z", py!"T", py!"P", py!"\\Q", py!"\\S", py!"\\V", py!"%V", py!"D", py!"A", py!"H",
      py!"O", py!"S0", py!"S2", py!"S3", py!"S4", py!"S5", py!"S6", py!"S7", py!"S8", py!"S9", py!"S10",
      py!"S11", py!"S30", py!"S103", py!"S104", py!"+FCLASS", py!"+ICF", py!"+IFC", py!"+IPR", py!"+GMI",
      py!"+GMM", py!"+GMR", py!"+GCAP", py!"+GSN", py!"+DR", py!"+DS", py!"+WS46", py!"+CBST", py!"+CRLP",
      py!"+CV120", py!"+CHSN", py!"+CSSN", py!"+CREG", py!"+CGREG", py!"+CFUN", py!"+GCAP", py!"+CSCS",
      py!"+CSTA", py!"+CR", py!"+CEER", py!"+CRC", py!"+CMEE", py!"+CGDCONT", py!"+CGDSCONT", py!"+CGTFT",
      py!"+CGEQREQ", py!"+CGEQMIN", py!"+CGQREQ", py!"+CGQMIN", py!"+CGEREP", py!"+CGPADDR", py!"+CGDATA",
      py!"+CGCLASS", py!"+CGSMS", py!"+CSMS", py!"+CMGF", py!"+CSAS", py!"+CRES", py!"+CSCA", py!"+CSMP",
      py!"+CSDH", py!"+CSCB", py!"+FDD", py!"+FAR", py!"+FCL", py!"+FIT", py!"+ES", py!"+ESA", py!"+CMOD",
      py!"+CVHU", py!"+CSQ", py!"+ZRSSI", py!"+CBC", py!"+CPAS", py!"+CPIN", py!"+CMEC", py!"+CKPD",
      py!"+CGATT", py!"+CGACT", py!"+CGCMOD", py!"+CPBS", py!"+CPBR", py!"+ZCPBR", py!"+ZUSIM", py!"+CPBF",
      py!"+CPBW", py!"+ZCPBW", py!"+CPMS", py!"+CNMI", py!"+CMGL", py!"+CMGR", py!"+CMGS", py!"+CMSS",
      py!"+CMGW", py!"+CMGD", py!"+CMGC", py!"+CNMA", py!"+CMMS", py!"+CHUP", py!"+CCFC", py!"+CCUG",
      py!"+COPS", py!"+CLCK", py!"+CPWD", py!"+CUSD", py!"+CAOC", py!"+CACM", py!"+CAMM", py!"+CPUC",
      py!"+CCWA", py!"+CHLD", py!"+CIMI", py!"+CGMI", py!"+CGMM", py!"+CGMR", py!"+CGSN", py!"+CNUM",
      py!"+CSIM", py!"+CRSM", py!"+CCLK", py!"+CLVL", py!"+CMUT", py!"+CLCC", py!"+COPN", py!"+CPOL",
      py!"+CPLS", py!"+CTZR", py!"+CTZU", py!"+CLAC", py!"+CLIP", py!"+COLP", py!"+CDIP", py!"+CTFR",
      py!"+CLIR", py!"$QCSIMSTAT", py!"$QCCNMI", py!"$QCCLR", py!"$QCDMG", py!"$QCDMR", py!"$QCDNSP",
      py!"$QCDNSS", py!"$QCTER", py!"$QCSLOT", py!"$QCPINSTAT", py!"$QCPDPP", py!"$QCPDPLT", py!"$QCPWRDN",
      py!"$QCDGEN", py!"$BREW", py!"$QCSYSMODE", py!"OK"]),
    (py!"AT+WIND?\r", [py!"ERROR"]),
    (py!"AT+WIND=50\r", [py!"ERROR"]),
    (py!"AT+ZPAS?\r", [py!"+BEARTYPE: \"UMTS\",\"CS_PS\"", py!"OK"]),
    (py!"AT+CPMS=?\r", [
      py!"+CPMS: (\"ME\",\"MT\",\"SM\",\"SR\"),(\"ME\",\"MT\",\"SM\",\"SR\"),(\"ME\",\"MT\",\"SM\",\"SR\")",
      py!"OK"]),
    (py!"AT+CVHU=0\r", [py!"+CVHU: (0-1)", py!"OK"])]
  forgetsSmsc := true

/-- `NokiaN79`, fakemodems.py:529-562. -/
def nokia : Fake where
  responses := [
    (py!"AT+CGMI\r", [py!"Nokia", py!"OK"]),
    (py!"AT+CGMM\r", [py!"Nokia N79", py!"OK"]),
    (py!"AT+CGMR\r", [
      py!"V ICPR72_08w44.1", py!"24-11-08", py!"RM-348", py!"(c) Nokia", py!"11.049", py!"OK"]),
    (py!"AT+CIMI\r", [py!"111111111111111", py!"OK"]),
    (py!"AT+CGSN\r", [py!"111111111111111", py!"OK"]),
    (py!"AT+CNMI=2,1,0,2\r", [py!"ERROR"]),
    (py!"AT+CLAC\r", [py!"ERROR"]),
    (py!"AT+WIND?\r", [py!"ERROR"]),
    (py!"AT+WIND=50\r", [py!"ERROR"]),
    (py!"AT+ZPAS?\r", [py!"ERROR"]),
    (py!"AT+CPMS=\"SM\",\"SM\",\"SR\"\r", [py!"ERROR"]),
    (py!"AT+CPMS=?\r", [py!"+CPMS: (),(),()", py!"OK"]),
    (py!"AT+CPMS?\r", [py!"+CPMS: ,,,,,,,,", py!"OK"]),
    (py!"AT+CPMS=,,\r", [py!"ERROR"]),
    (py!"AT+CPMS=\"SM\",\"SM\"\r", [py!"ERROR"]),
    (py!"AT+CSMP?\r", [py!"+CSMP: 49,167,0,0", py!"OK"]),
    (py!"AT+GCAP\r", [py!"+GCAP: +CGSM,+DS,+W", py!"OK"]),
    (py!"AT+CVHU=0\r", [py!"OK"])]
  noPin := [py!"ATZ\r", py!"ATE0\r", py!"AT+CFUN?\r", py!"AT+CFUN=1\r", py!"AT+CMEE=1\r"]

/-- `createModems`, fakemodems.py:565-569. -/
def modems : List Fake := [huaweiK3715, huaweiE1752, wavecom, qualcomm, zte, nokia]

end Gsm.Validation
