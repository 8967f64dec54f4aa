import Verif.Model.AtCommands
/-! # The full table of AT commands: tools/gsmtermlib/atcommands.py, with values, responses and descriptions

Besides category and name an entry has nothing more or values, response values, a description and perhaps a
label (the five- and six-tuples). -/
set_option maxRecDepth 4000

namespace Gsm

/-- Value or response value of a command, with its meaning (`None` is possible). -/
abbrev HelpValues := Option (List (PyStr × Option PyStr))

/-- The third to sixth component of an entry. -/
structure HelpDetail where
  values : HelpValues
  returns : HelpValues
  description : PyStr
  label : Option PyStr
  deriving DecidableEq, Repr

/-- Entry of the table. -/
structure HelpEntry where
  category : PyStr
  name : PyStr
  detail : Option HelpDetail
  deriving DecidableEq, Repr

/-- `c[i]`. -/
def cat (i : Nat) : PyStr := atCategories.getD i []

/-- `ATCOMMANDS`, part 1. -/
def atRows1 : List (PyStr × HelpEntry) :=
  [(py!"AT+CGMI", ⟨cat 0, py!"Manufacturer Identification", some ⟨none, none, py!"Displays the manufacturer identification.", none⟩⟩),
   (py!"AT+CGMM", ⟨cat 0, py!"Request Model Identification", some ⟨none, none, py!"Displays the supported frequency bands. With multi-band products the response may be a combination of different bands.", none⟩⟩),
   (py!"AT+CGMR", ⟨cat 0, py!"Request Revision Identification", some ⟨none, none, py!"Displays the revised software version.", none⟩⟩),
   (py!"AT+CGSN", ⟨cat 0, py!"Product Serial Number", some ⟨none, none, py!"Allows the user application to get the IMEI (International Mobile Equipment Identity, 15-digit number) of the product.", none⟩⟩),
   (py!"AT+CSCS", ⟨cat 0, py!"Select TE Character Set", some ⟨some [(py!"<Character Set>", some py!"GSM - GSM default alphabet (default value).\nPCCP437 - PC character set code page 437.\nCUSTOM - User defined character set (cf. +WCCS command).\nHEX - Hexadecimal mode. No character set used; the user can read or write hexadecimal values.")], none, py!"Informs the ME which character set is used by the TE. The ME can convert each character of entered or displayed strings. This is used to send, read or write short messages. See also +WPCS for the phonebooks' character sets.", none⟩⟩),
   (py!"AT+WPCS", ⟨cat 0, py!"Phonebook Character Set", some ⟨some [(py!"<Character Set>", some py!"TRANSPARENT - Transparent mode. The strings are displayed and entered as they are stored in SIM or in ME.\nCUSTOM - User defined character set (cf. +WCCS command).\nHEX - Hexadecimal mode. No character set used; the user can read or write hexadecimal values.")], none, py!"Informs the ME which character set is used by the TE for the phonebooks. The ME can converteach character of entered or displayed strings. This is used to read or write phonebook entries.See also +CSCS for the short messages character sets.", none⟩⟩),
   (py!"AT+CIMI", ⟨cat 0, py!"Request IMSI", some ⟨none, none, py!"Reads and identifies the IMSI (International Mobile Subscriber Identity) of the SIM card. The PIN may need to be entered before reading the IMSI", none⟩⟩),
   (py!"AT+CCID", ⟨cat 0, py!"Card Identification", some ⟨none, none, py!"Orders the product to read the EF-CCID file on the SIM card.", none⟩⟩),
   (py!"AT+GCAP", ⟨cat 0, py!"Capabilities List", some ⟨none, none, py!"Displays the complete list of capabilities.", none⟩⟩),
   (py!"A/", ⟨cat 0, py!"Repeat Last Command", some ⟨none, none, py!"Repeats the previous command. Only the A/ command itself cannot be repeated.", none⟩⟩)]

/-- `ATCOMMANDS`, part 2. -/
def atRows2 : List (PyStr × HelpEntry) :=
  [(py!"AT+CPOF", ⟨cat 0, py!"Power Off", some ⟨none, none, py!"Stops the GSM software stack as well as the hardware layer. The AT+CFUN=0 command is equivalent to +CPOF.", none⟩⟩),
   (py!"AT+CFUN", ⟨cat 0, py!"Set Phone Functionality", some ⟨some [(py!"<functionality level>", some py!"0: Set minimum functionality; IMSI detach procedure\n1: Set the full functionality mode with a complete software reset")], none, (py!"Selects the mobile station's level of functionality. When the application wants to stop the product with a power off, or if the application wants to force the product to execute an IMSI DETACH procedure, then it must send: AT+CFUN=0 (equivalent to AT+CPOF). This command executes an IMSI DETACH and m" ++ py!"akes a backup copy of some internal parameters in SIM and in EEPROM. The SIM card cannot then be accessed. If the mobile equipment is not powered off by the application after this command has been sent, a re-start command (AT+CFUN=1) will have to issued to restart the whole GSM registration process." ++ py!" If the mobile equipment is turned off after this command, then a power on will automatically restart the whole GSM process. The AT+CFUN=1 command restarts the entire GSM stack and GSM functionality: a complete software reset is performed. All parameters are reset to their previous values if AT&W wa" ++ py!"s not used. If you write entries in the phonebook (+CPBW) and then reset the product directly (AT+CFUN=1, with no previous AT+CFUN=0 command), some entries may not be written (the SIM task does not have enough time to write entries in the SIM card). In addition, the OK response will be sent at the l" ++ py!"ast baud rate defined by the +IPR command. With the autobauding mode the response can be at a different baud rate, it is therefore preferable to save the defined baud rate with AT&W before directly sending the AT+CFUN=1 command."), none⟩⟩),
   (py!"AT+CPAS", ⟨cat 0, py!"Phone Activity Status", some ⟨none, none, py!"Returns the activity status of the mobile equipment.\nResponse is: +CPAS: <pas>\nwhere <pas> is:\n 0 ready (allow commands from TA/TE)\n 1 unavailable (does not allow commands)\n 2 unknown\n 3 ringing (ringer is active)\n 4 call in progress\n 5 asleep (low functionality)", none⟩⟩),
   (py!"AT+CMEE", ⟨cat 0, py!"Report Mobile Equipment Errors", some ⟨some [(py!"<error reporting flag>", some py!"0: Disable ME error reports; use only ERROR\n1: Enable +CME ERROR: <xxx> or +CMS ERROR: <xxx>\n2: Enable error result codes with verbose (string) values")], none, py!"Disables or enables the use of the \"+CME ERROR: <xxx>\" or \"+CMS ERROR:<xxx>\" result code instead of simply \"ERROR\".", none⟩⟩),
   (py!"AT+CKPD", ⟨cat 0, py!"Keypad Control", some ⟨some [(py!"<keys>", some py!"Keyboard sequence; string of the following characters (0-9, *, #)")], none, py!"Emulates the ME keypad by sending each keystroke as a character in a <keys> string.\nIf emulation fails, a +CME ERROR: <err> is returned. If emulation succeeds, the result depends on the GSM sequence activated.", none⟩⟩),
   (py!"AT+CCLK", ⟨cat 0, py!"Clock Management", some ⟨some [(py!"<date and time string>", some py!"String format for date/time is \"yy/MM/dd,hh:mm:ss\"\nNote: Valid years are 98 (for 1998) to 97 (for 2097). The seconds field is not mandatory.")], none, py!"Sets or gets the current date and time of the ME real-time clock.", none⟩⟩),
   (py!"AT+CALA", ⟨cat 0, py!"Alarm Management", some ⟨some [(py!"<date and time string>", some py!"String format for alarms: \"yy/MM/dd,hh:mm:ss\" (see +CCLK)\nNote: Seconds are taken into account."), (py!"<index>", some py!"Offset in the alarm list, range 1 to 16")], none, py!"Sets the alarm date/time in the ME. The maximum number of alarms is 16.", none⟩⟩),
   (py!"ATD", ⟨cat 1, py!"Dial command", some ⟨some [(py!"<nb>", some py!"Destination phone number")], none, (py!"The ATD command sets a voice, data or fax call. As per GSM 02.30, the dial command also controls supplementary services.\nFor a data or a fax call, the application sends the following ASCII string to the product (the bearer must be previously selected with the +CBST command):\n ATD<nb> where <nb> is t" ++ py!"he destination phone number;\nFor a voice call, the application sends the following ASCII string to the product: (the bearer may be selected previously, if not a default bearer is used).\n ATD<nb>; where <nb> is the destination phone number.\nPlease note that for an international number, the local inte" ++ py!"rnational prefix does not need to be set (usually 00) but does need to be replaced by the '+' character.\n\nThere are other varieties of the ATD command available (using phonebook memory); please search online for help on these."), none⟩⟩),
   (py!"ATH", ⟨cat 1, py!"Hang-Up command", some ⟨some [(py!"<n>", some py!"0: Ask for disconnection (default value)\n1: Ask for outgoing call disconnection")], none, (py!"The ATH (or ATH0) command disconnects the remote user. In the case of multiple calls, all calls are released (active, on-hold and waiting calls). The specific ATH1 command has been appended to disconnect the current outgoing call, only in dialing or alerting state (ie. ATH1 can be used only after th" ++ py!"e ATD command, and before its terminal response (OK, NO CARRIER, ...). It can be useful in the case of multiple calls."), none⟩⟩),
   (py!"ATA", ⟨cat 1, py!"Answer a Call", some ⟨none, none, py!"When the product receives a call, it sets the RingInd signal and sends the ASCII \"RING\" or \"+CRING: <type>\" string to the application (+CRING if the cellular result code +CRC is enabled). Then it waits for the application to accept the call with the ATA command.", none⟩⟩)]

/-- `ATCOMMANDS`, part 3. -/
def atRows3 : List (PyStr × HelpEntry) :=
  [(py!"AT+CEER", ⟨cat 1, py!"Extended Error Report", some ⟨none, none, py!"This command gives the cause of call release when the last call set up (originating or answering) failed.", none⟩⟩),
   (py!"AT+VTD", ⟨cat 1, py!"DTMF Signals - set tone duration", some ⟨some [(py!"<v>", some py!"tone duration.\n*100 is the duration in ms. If < 4, tone duration is 300 ms; if n > 255, the value used is modulo 256.\nDefault value: 300 ms, that is <n> = 3.")], none, py!"The modem can send DTMF tones over the GSM network. This command is used to define tone duration (the default value is 300ms). To define this duration, the application uses:\nAT+VTD=<n> where <n>*100 gives the duration in ms. If n < 4, tone duration is 300 ms.\nSee also: AT+VTS", none⟩⟩),
   (py!"AT+VTS", ⟨cat 1, py!"DTMF Signals - send tone", some ⟨some [(py!"<Tone>", some py!"DTMF tone to transmit. Tone is in {0-9, *, #, A, B, C, D}")], none, py!"The modem can send DTMF tones over the GSM network. This command enables tones to be transmitted only when there is an active call.\nSee also: AT+VTD\n\nExample:\nTo send tone sequence 13#, the application sends:\nAT+VTS=1;+VTS=3;+VTS=#", none⟩⟩),
   (py!"ATDL", ⟨cat 1, py!"Redial Last Telephone Number", some ⟨none, none, py!"This command redials the last number used in the ATD command. The last number dialed is displayed followed by \";\" for voice calls only.", none⟩⟩),
   (py!"AT%D", ⟨cat 1, py!"Automatic Dialing with DTR", some ⟨some [(py!"<n>", some (py!"Enable or disables automatic message transmission or number dialing.\nInforms the product that the number is a voice rather than a fax or data number.\n0 Disables automatic DTR number dialing / message transmission.\n1; Enables automatic DTR dialing if DTR switches from OFF to ON; Dials the phone numbe" ++ py!"r in the first location of the ADN phonebook. Voice call.\n1 Activates automatic DTR dialing if DTR switches from OFF to ON; Dials the phone number in the first location of the ADN phonebook. Data or Fax call.\n2 Activates automatic DTR message transmission if DTR switches from OFF to ON."))], none, (py!"This command enables and disables:\n- Automatic dialing of the phone number stored in the first location of the ADN phonebook,\n- Automatic sending of the short message (SMS) stored in the first location of the SIM.\nThe number is dialed when DTR OFF switches ON. The short message is sent when DTR OFF " ++ py!"switches ON."), none⟩⟩),
   (py!"ATS0", ⟨cat 1, py!"Automatic Answer", some ⟨some [(py!"<value>", some py!"is the number of rings before automatic answer (3 characters padded with zeros)\nRange of values is 0 to 255")], none, py!"This S0 parameter determines and controls the modem automatic answering mode.", none⟩⟩),
   (py!"AT+CICB", ⟨cat 1, py!"Incoming Call Bearer", some ⟨some [(py!"<mode>", some py!"0: Data\n1: Fax\n2: Speech")], none, py!"This command sets the type of incoming calls when no incoming bearer is given (see +CSNS).\nNote: Setting the +CICB command affects the current value of +CSNS.", none⟩⟩),
   (py!"AT+CSNS", ⟨cat 1, py!"Single Numbering Scheme", some ⟨some [(py!"<mode>", some py!"0: Voice\n2: Fax\n4: Data")], none, py!"This command selects the bearer to be used when an MT single numbering scheme call is set up (see +CICB).\nNote: Setting the +CSNS command affects the current value of +CICB.", none⟩⟩),
   (py!"AT+VGR", ⟨cat 1, py!"Gain Control - Reception", some ⟨some [(py!"<Rgain>", some py!"reception gain")], none, py!"This command is used by the application to tune the receive gain of the speaker.", none⟩⟩),
   (py!"AT+VGT", ⟨cat 1, py!"Gain Control - Transmission", some ⟨some [(py!"<Tgain>", some py!"transmission gain")], none, py!"This command is used by the application to tune the transmit gain of the microphone.", none⟩⟩)]

/-- `ATCOMMANDS`, part 4. -/
def atRows4 : List (PyStr × HelpEntry) :=
  [(py!"AT+CMUT", ⟨cat 1, py!"Microphone Mute Control", some ⟨some [(py!"<mode>", some py!"0: microphone mute off (default)\n1: microphone mute on")], none, py!"This command mutes the microphone input on the device. This command is only allowed during a call.", none⟩⟩),
   (py!"AT+CVHU", ⟨cat 1, py!"Voice Hangup Control", some ⟨some [(py!"<mode>", some py!"0: \"Drop DTR\" ignored but OK response given. ATH disconnects.\n1: \"Drop DTR\" and ATH ignored but OK response given.\n2: \"Drop DTR\" behavior according to &D setting. ATH disconnects.")], none, py!"This command selects whether ATH or \"drop DTR\" causes a voice connection to be disconnected or not. Voice connection also includes alternating mode calls that are currently in voice mode.\nWhen <mode>=2, this command must be viewed in conjunction with the V.25ter command &D, or &D will be ignored", none⟩⟩),
   (py!"AT+CSQ", ⟨cat 2, py!"Signal Quality", some ⟨none, some [(py!"<rssi>", some py!"0: -113 dBm or less\n1: -111 dBm\n2 to 30: -109 to -53 dBm\n31: -51dBm or greater\n99: not known or not detectable"), (py!"<ber>", some py!"0...7: as RXQUAL values in the table GSM 05.08")], py!"This command determines the received signal strength indication (<rssi>) and the channel bit error rate (<ber>) with or without a SIM card inserted", none⟩⟩),
   (py!"AT+COPS", ⟨cat 2, py!"Operator Selection", some ⟨some [(py!"<mode>", some py!"0: automatic (default value)\n1: manual\n2: deregistration; ME will be unregistered until <mode>=0 or 1 is selected.\n3: set only <format> (for read command AT+COPS?)\n4: manual / automatic (<oper> shall be present), if manual selection fails, automatic mode is entered.\n<format>: format of <oper> field"), (py!"<format>", some py!"0: long alphanumeric format <oper>\n1: short alphanumeric format <oper>\n2: numeric <oper> (default value) <stat>: status of <oper>\n\n<stat>\n 0: unknown\n 1: available\n 2: current\n 3: forbidden"), (py!"<oper>", some py!"operator identifier (MCC/MNC in numeric format only for operator selection)\nThe long alphanumeric format can be up to 16 characters long. The short alphanumeric format can be up to 8 characters long.")], none, py!"Select the Network Operator.", none⟩⟩),
   (py!"AT+CREG", ⟨cat 2, py!"Network Registration", some ⟨some [(py!"<mode>", some py!"0: Disable network registration unsolicited result code (default)\n1: Enable network registration code result code +CREG: <stat>\n2: Enable network registration and location information unsolicited result code +CREG: <stat>,<lac>,<ci> if there is a change of network cell.")], some [(py!"<stat>", some py!"0: not registered, ME is not currently searching for a new operator.\n1: registered, home network.\n2: not registered, ME currently searching for a new operator to register to.\n3: registration denied.\n4: unknown.\n5: registered, roaming."), (py!"<lac>", some py!"string type; two byte location area code in hexadecimal format"), (py!"<ci>", some py!"string type; two byte cell ID in hexadecimal format")], py!"This command is used by the application to ascertain the registration status of the device.", none⟩⟩),
   (py!"AT+WOPN", ⟨cat 2, py!"Read Operator Name", none⟩),
   (py!"AT+WOPN", ⟨cat 2, py!"Selection of Preferred PLMN List", none⟩),
   (py!"AT+CPLS", ⟨cat 2, py!"Selection of Preferred PLMN List", none⟩),
   (py!"AT+CPOL", ⟨cat 2, py!"Preferred Operator List", none⟩),
   (py!"AT+COPN", ⟨cat 2, py!"Read Operator Name", some ⟨none, some [(py!"<NumOper>", some py!"the operator in numeric format"), (py!"<AlphaOper>", some py!"the operator in long alphanumeric format")], py!"This command returns the list of all operator names (in numeric and alphanumeric format) stored in the module.", none⟩⟩)]

/-- `ATCOMMANDS`, part 5. -/
def atRows5 : List (PyStr × HelpEntry) :=
  [(py!"AT+CPIN", ⟨cat 3, py!"Enter PIN", some ⟨some [(py!"<pin>", some py!"the personal identification number"), (py!"<puk>", some py!"the personal unblocking key needed to change the PIN; syntax: AT+CPIN=<puk>,<new pin>")], none, py!"This command enters the ME passwords (CHV1 / CHV2 / PUK1 / PUK2, etc.), that are required before any ME functionality can be used.", none⟩⟩),
   (py!"AT+CPIN2", ⟨cat 3, py!"Enter PIN2", some ⟨some [(py!"<pin2>", some py!"the personal identification number 2"), (py!"<puk2>", some py!"the personal unblocking key 2 needed to change the PIN 2; syntax: AT+CPIN=<puk2>,<new pin 2>")], none, (py!"This command validates the PIN2 code (CHV2) or the PUK2 code (UNBLOCK CHV2) and defines a new PIN2 code. Of course, the +CPIN command allows PIN2 or PUK2 codes to be validated, but only when the last command executed resulted in PIN2 authentication failure. PIN2 length is between 4 and 8 digits; PUK" ++ py!"2 length is 8 digits only."), none⟩⟩),
   (py!"AT+CPINC", ⟨cat 3, py!"PIN Remaining Attempt Number", some ⟨none, some [(py!"<n1>", some py!"attempts left for PIN1 (0 = blocked, 3 max)"), (py!"<n2>", some py!"attempts left for PIN2 (0 = blocked, 3 max)"), (py!"<k1>", some py!"attempts left for PUK1 (0 = blocked, 10 max)"), (py!"<k2>", some py!"attempts left for PUK2 (0 = blocked, 10 max)")], py!"This command gets the number of valid attempts for PIN1 (CHV1), PIN2 (CHV2), PUK1 (UNBLOCK CHV1) and PUK2 (UNBLOCK CHV2) identifiers.", none⟩⟩),
   (py!"AT+CLCK", ⟨cat 3, py!"Call Barring", none⟩),
   (py!"AT+CPWD", ⟨cat 3, py!"Change Password", none⟩),
   (py!"AT+CPBS", ⟨cat 4, py!"Select Phonebook Memory Storage", some ⟨some [(py!"\"SM\"", some py!"ADN (SIM phonebook)"), (py!"\"FD\"", some py!"FDN (SIM Fix Dialing, restricted phonebook)"), (py!"\"ON\"", some py!"MSISDN (SIM own numbers)"), (py!"\"EN\"", some py!"EN (SIM emergency number)"), (py!"\"LD\"", some py!"LND (combined ME and SIM last dialing phonebook)"), (py!"\"MC\"", some py!"MSD (ME missed calls list)"), (py!"\"ME\"", some py!"ME (ME phonebook)"), (py!"\"MT\"", some py!"MT (combined ME and SIM phonebook)"), (py!"\"RC\"", some py!"LIC (ME received calls list)"), (py!"\"SN\"", some py!"SDN (Services dialing phonebook)")], none, py!"This command selects phonebook memory storage.", some py!"Available Phonebooks:"⟩⟩),
   (py!"AT+CPBR", ⟨cat 4, py!"Read Phonebook Entries", some ⟨some [(py!"<first_entry>", some py!"Location of phonebook entry or start of range of locations (if <last_entry> is specified) of the phonebook entries"), (py!"<last_entry>", some py!"End of range of locations of the phonebook entries")], none, py!"This command returns phonebook entries for a range of locations from the current phonebook memory storage selected with +CPBS.", none⟩⟩),
   (py!"AT+CPBF", ⟨cat 4, py!"Find Phonebook Entries", some ⟨some [(py!"<string>", some py!"Searched starting string (depends on the format of the data stored in the phonebooks")], none, (py!"This command returns phonebook entries with alphanumeric fields starting with a given string. The +CPBF command can be used to display all phonebook entries sorted in alphabetical order. This command is not allowed for \"LD\", \"RC\", \"MC\", \"SN\" or \"EN\" phonebooks, which do not contain alphanumeric fiel" ++ py!"ds."), none⟩⟩),
   (py!"AT+CPBW", ⟨cat 4, py!"Write Phonebook Entry", some ⟨some [(py!"<index>", some py!"Integer type value depending on the capacity of the phonebook memory"), (py!"<number>", some py!"Phone number in ASCII format"), (py!"<type>", some py!"TON/NPI (Type of address byte in integer format)"), (py!"text>", some py!"Text label/name of entry. String type")], none, py!"This command writes a phonebook entry in location number <index> in the current phonebook memory storage.\nThis command is not allowed for \"EN\", \"LD\", \"MC\", \"RC\", \"MT\", and \"SN\" phonebooks (they cannot be written).", none⟩⟩),
   (py!"AT+CPBP", ⟨cat 4, py!"Phonebook Phone Search", none⟩)]

/-- `ATCOMMANDS`, part 6. -/
def atRows6 : List (PyStr × HelpEntry) :=
  [(py!"AT+CPBN", ⟨cat 4, py!"Move Action in Phonebook", none⟩),
   (py!"AT+CNUM", ⟨cat 4, py!"Subscriber Number", some ⟨none, some [(py!"<alphax>", some py!"optional alphanumeric string associated with <numberx>"), (py!"<numberx>", some py!"string type phone number with format as specified by <typex>"), (py!"<typex>", some py!"type of address byte in integer format")], py!"This command returns the subscriber MSISDN(s). If the subscriber has different MSISDNs for different services, each MSISDN is returned in a separate line.", none⟩⟩),
   (py!"AT+WAIP", ⟨cat 4, py!"Avoid Phonebook Initialization", none⟩),
   (py!"AT+WDCP", ⟨cat 4, py!"Delete Calls Phonebook", none⟩),
   (py!"AT+CSVM", ⟨cat 4, py!"Set Voice Mail Number", none⟩),
   (py!"AT+CSMS", ⟨cat 5, py!"Select Message Service", some ⟨some [(py!"<service>", some py!"0: SMS AT commands are compatible with GSM 07.05 Phase 2 version 4.7.0.\n1: SMS AT commands are compatible with GSM 07.05 Phase 2 + version")], none, py!"The supported services include originated (SMS-MO) and terminated short messages (SMS-MT) as well as Cell Broadcast Message (SMS-CB) services.", none⟩⟩),
   (py!"AT+CNMA", ⟨cat 5, py!"New Message Acknowledgment", some ⟨some [(py!"<n>", some py!"0: send RP-ACK without PDU (same as TEXT mode)\n1: send RP-ACK with optional PDU message\n2: send RP-ERROR with optional PDU message"), (py!"<length>", some py!"Length of the PDU message")], none, (py!"This command allows reception of a new message routed directly to the TE to be acknowledged.\nIn TEXT mode, only positive acknowledgement to the network (RP-ACK) is possible.\nIn PDU mode, either positive (RP-ACK) or negative (RP-ERROR) acknowledgement to the network is possible.\nAcknowledgement with " ++ py!"+CNMA is possible only if the +CSMS parameter is set to 1 (+CSMS=1) when a +CMT or +CDS indication is shown (see +CNMI command).\nIf no acknowledgement occurs within the network timeout, an RP-ERROR is sent to the network. The <mt> and <ds> parameters of the +CNMI command are then reset to zero (do n" ++ py!"ot show new message indication)."), none⟩⟩),
   (py!"AT+CPMS", ⟨cat 5, py!"Preferred Message Storage", some ⟨some [(py!"<mem1>", some (py!"Memory used to list, read and delete messages. It can be:\n \"SM\": SMS message storage in SIM (default)\n \"BM\": CBM message storage (in volatile memory).\n \"SR\": Status Report message storage (in SIM if the EF-SMR file exists, otherwise in the ME non volatile memory)\n       Note: \"SR\" ME non-volatile me" ++ py!"mory is cleared when another SIM card is inserted. It is kept, even after a reset, while the same SIM card is used.")), (py!"<mem2>", some py!"Memory to be used to write and send messages\n \"SM\": SMS message storage in SIM (default)")], some [(py!"<used1>", some py!"Used memory 1"), (py!"total1", some py!"Total memory 1"), (py!"<used2>", some py!"Used memory 2"), (py!"total2", some py!"Total memory 2")], py!"This command allows the message storage area to be selected (for reading, writing, etc).", none⟩⟩),
   (py!"AT+CMGF", ⟨cat 5, py!"Preferred Message Format", some ⟨some [(py!"<mode>", some py!"0: PDU mode\n1: Text mode")], none, py!"The message formats supported are text mode and PDU mode.", none⟩⟩),
   (py!"AT+CSAS", ⟨cat 5, py!"Save Settings", none⟩)]

/-- `ATCOMMANDS`, part 7. -/
def atRows7 : List (PyStr × HelpEntry) :=
  [(py!"AT+CRES", ⟨cat 5, py!"Restore Settings", none⟩),
   (py!"AT+CNMI", ⟨cat 5, py!"New Message Indication", some ⟨some [(py!"<mode>", some (py!"Controls the processing of unsolicited result codes. Values:\n0: Buffer unsolicited result codes in the TA. If TA result code buffer is full, indications can be buffered in some other place, or the oldest indications may be discarded and replaced with the new received indications\n1: Discard indicatio" ++ py!"n and reject new received message unsolicited result codes when TA-TE link is reserved. Otherwise forward them directly to the TE\n2: Buffer unsolicited result codes in the TA when TA-TE link is reserved and flush them to the TE after reservation. Otherwise forward them directly to the TE\n3: Forward " ++ py!"unsolicited result codes directly to the TE. TA-TE link specific inband used to embed result codes and data when TA is in on-line data mode")), (py!"<mt>", some (py!"Sets the result code indication routing for SM-DELIVERs. Default is 0. Values:\n0: No SMS-DELIVER indications are routed.\n1: SMS-DELIVERs are routed using unsolicited code: +CMTI: \"SM\",<index>\n2: SMS-DELIVERs (except class 2 messages) are routed using unsolicited code: +CMT: [<alpha>,]<length> <CR> <" ++ py!"LF> <pdu> (PDU mode) or +CMT: <oa>,[<alpha>,] <scts> [,<tooa>, <fo>, <pid>, <dcs>,<sca>, <tosca>, <length>] <CR><LF><data> (text mode)\n3: Class 3 SMS-DELIVERs are routed directly using code in <mt>=2 ; Message of other classes result in indication <mt>=1")), (py!"<bm>", some (py!"Set the rules for storing received CBMs (Cell Broadcast Message). Default is 0. Values:\n0: No CBM indications are routed to the TE. The CBMs are stored.\n1: The CBM is stored and an indication of the memory location is routed to the customer application using unsolicited result code: +CBMI: \"BM\", <in" ++ py!"dex>\n2: New CBMs are routed directly to the TE using unsolicited result code. +CBM: <length><CR><LF><pdu> (PDU mode) or +CBM:<sn>,<mid>,<dcs>,<page>,<pages>(Text mode) <CR><LF> <data>\n3: Class 3 CBMs: as <bm>=2. Other classes CBMs: as <bm>=1.")), (py!"<ds>", some (py!"for SMS-STATUS-REPORTs. Default is 0. Values:\n0: No SMS-STATUS-REPORTs are routed.\n1: SMS-STATUS-REPORTs are routed using unsolicited code: +CDS: <length> <CR> <LF> <pdu> (PDU\nmode) or +CDS: <fo>,<mr>, [<ra>] , [<tora>], <scts>,<dt>,<st> (Text mode)\n2: SMS-STATUS-REPORTs are stored and routed using " ++ py!"the unsolicited result code: +CDSI: \"SR\",<index>")), (py!"<bfr>", some (py!"Default is 0. Values:\n0: TA buffer of unsolicited result codes defined within this command is flushed to the TE when <mode> 1...3is entered (OK response shall be given before flushing the codes)\n1: TA buffer of unsolicited result codes defined within this command is cleared when <mode> 1...3 is ente" ++ py!"red."))], none, py!"This command selects the procedure for message reception from the network.", none⟩⟩),
   (py!"AT+CMGR", ⟨cat 5, py!"Read Message", some ⟨some [(py!"<index>", some py!"Location of message to read")], none, py!"This command allows the application to read stored messages. The messages are read from the memory selected by the +CPMS command.", none⟩⟩),
   (py!"AT+CMGL", ⟨cat 5, py!"List Message", some ⟨some [(py!"<stat>", some py!"Status of messages in memory to list. Allowed values are:\nText mode     PDU mode\n\"REC UNREAD\"  0\n\"REC READ\"    1\n\"STO UNSENT\"  2\n\"STO SENT\"    3\n\"ALL\"         4")], none, py!"This command allows the application to read stored messages, by indicating the type of the message to read. The messages are read from the memory selected by the +CPMS command.", none⟩⟩),
   (py!"AT+CMGS", ⟨cat 5, py!"Send Message", some ⟨some [(py!"<da>", some py!"Destination Address (text mode) - message destination phone number")], none, (py!"The <address> field is the address of the terminal to which the message is sent. To send the message, simply type, <ctrl-Z> character (ASCII 26). The text can contain all existing characters except <ctrl-Z> and <ESC> (ASCII 27). This command can be aborted using the <ESC> character when entering tex" ++ py!"t. In PDU mode, only hexadecimal characters are used ('0'...'9','A'...'F')."), none⟩⟩),
   (py!"AT+CMGW", ⟨cat 5, py!"Write Message to Memory", none⟩),
   (py!"AT+CMSS", ⟨cat 5, py!"Send Message from Storage", some ⟨some [(py!"<index>", some py!"location of stored message"), (py!"<da>", some py!"destination address"), (py!"<toda>", some py!"type of destination address")], some [(py!"<mr>", some py!"message reference")], py!"This command sends a message stored at location value <index>.", none⟩⟩),
   (py!"AT+CSMP", ⟨cat 5, py!"Set Text Mode Parameters", some ⟨some [(py!"<fo>", some py!"byte comprising 6 fields, RP, UDHI, SRR, VPFG, RD and MTI"), (py!"<vp>", some py!"validity period"), (py!"<pid>", some py!"used to indicate the higher layer protocol being used or indicates interworking with a certain type of telematic device. For example, 0x22 is for group 3 telefax, 0x24 is for voice telephone, 0x25 is for ERMES."), (py!"<dcs>", some py!"used to determine the way the information is encoded.")], none, py!"This command selects a value for <vp>, <pid>, and <dcs>.", none⟩⟩),
   (py!"AT+CMGD", ⟨cat 5, py!"Delete Message", some ⟨some [(py!"<index>", some py!"Integer type values in the range of location numbers of SIM Message memory when the preferred message storage is \"SM or \"SR\"."), (py!"<DelFlag>", some py!"0: Delete message at location <index>.\n1: Delete All READ messages\n2: Delete All READ and SENT messages\n3: Delete All READ, SENT and UNSENT messages\n4: Delete All messages.")], none, py!"This command deletes one or several messages from preferred message storage.", none⟩⟩),
   (py!"AT+CSCA", ⟨cat 5, py!"Service Center Address", some ⟨some [(py!"<sca>", some py!"service center address")], none, py!"This command sets (or queries) the service center to which SMS messages must be sent.", none⟩⟩)]

/-- `ATCOMMANDS`, part 8. -/
def atRows8 : List (PyStr × HelpEntry) :=
  [(py!"AT+CSCB", ⟨cat 5, py!"Select Cell Broadcast Message Types", some ⟨some [(py!"<mode>", some py!"0 - CBM reception activated\n1 - CBM reception deactivated"), (py!"<mids>", some py!"message identifiers - indicates the type of message idenitfiers for which the ME should listen"), (py!"<dcss>", some py!"Supported Languages")], none, py!"This command selects which types of CBMs are to be received by the ME.", none⟩⟩),
   (py!"AT+WCBM", ⟨cat 5, py!"Cell Broadcast Message Identifiers", none⟩),
   (py!"AT+WMSC", ⟨cat 5, py!"Message Status Modification", none⟩),
   (py!"AT+WMGO", ⟨cat 5, py!"Message Overwriting", none⟩),
   (py!"AT+WUSS", ⟨cat 5, py!"Unchange SMS Status", none⟩),
   (py!"AT+CCFC", ⟨cat 6, py!"Call Forwarding", none⟩),
   (py!"AT+CCWA", ⟨cat 6, py!"Call Waiting", none⟩),
   (py!"AT+CLIR", ⟨cat 6, py!"Calling Line Identification Restriction", some ⟨some [(py!"<n>", some py!"Sets the line ID restriction for outgoing calls. Values:\n0: Presentation indicator is used according to the subscription of the CLIR service\n1: CLIR invocation\n2: CLIR suppression")], some [(py!"<m>", some py!"Shows the subscriber CLIR status in the network. Values:\n0: CLIR not provisioned\n1: CLIR provisioned in permanent mode\n2: Unknown (no network...)\n3: CLIR temporary mode presentation restricted\n4: CLIR temporary mode presentation allowed")], py!"This command controls the Calling Line Identification restriction supplementary service.", none⟩⟩),
   (py!"AT+CLIP", ⟨cat 6, py!"Calling Line Identification Presentation", some ⟨some [(py!"<n>", some py!"Parameter sets/shows the result code presentation in the TA. Values:\n0: Disable\n1: Enable")], some [(py!"<m>", some py!"Parameter shows the subscriber CLIP service status in the network. Values:\n0: CLIP not provisioned\n1: CLIP provisioned\n2: Unknown (no network...)")], py!"This command controls the calling line identification presentation supplementary service. When presentation of the CLI (Calling Line Identification) is enabled (and calling subscriber allows), +CLIP response is returned after every RING (or +CRING) result code.", none⟩⟩),
   (py!"AT+COLP", ⟨cat 6, py!"Connected Line Identification Presentation", none⟩)]

/-- `ATCOMMANDS`, part 9. -/
def atRows9 : List (PyStr × HelpEntry) :=
  [(py!"AT+CAOC", ⟨cat 6, py!"Advice Of Charge", none⟩),
   (py!"AT+CAMM", ⟨cat 6, py!"Accumulated Call Meter Maximum", none⟩),
   (py!"AT+CPUC", ⟨cat 6, py!"Price Per Unit and Currency Table", none⟩),
   (py!"AT+CHLD", ⟨cat 6, py!"Call Related Supplementary Services", none⟩),
   (py!"AT+CHLD", ⟨cat 6, py!"Call Related Supplementary Services", none⟩),
   (py!"AT+CLCC", ⟨cat 6, py!"List Current Calls", some ⟨none, some [(py!"<idx>", some py!"integer type, call identification as described in GSM 02.30"), (py!"<dir>", some py!"0: mobile originated (MO) call\n2: mobile terminated (MT) call"), (py!"<stat>", some py!"0: active\n1: held\n2: dialing (MO call)\n3: alerting (MO call)\n4: incoming (MT call)\n5: waiting (MT call)"), (py!"<mode>", some py!"0: voice\n1: data\n2: fax\n9: unknown"), (py!"<mpty>", some py!"0: call is not one of multiparty (conference) call parties\n1: call is one of multiparty (conference) call parties"), (py!"<number>", some py!"string type phone number in format specified by <type>"), (py!"<type>", some py!"type of address byte in integer format"), (py!"<alpha>", some py!"optional string type alphanumeric representation of <number> corresponding to the entry found in phonebook")], py!"This command returns a list of current calls.", none⟩⟩),
   (py!"AT+CSSN", ⟨cat 6, py!"Supplementary Service Notifications", none⟩),
   (py!"AT+CUSD", ⟨cat 6, py!"Unstructured Supplementary Service Data", some ⟨some [(py!"<n>", some py!"0: Disable the result code presentation\n1: Enable the result code presentation\n2: Cancel session (not applicable to read command response)"), (py!"<str>", some py!"network string, converted in the selected character set"), (py!"<dcs>", some py!"the data coding scheme received (TSM TS 03.38)")], some [(py!"<m>", some (py!"0: no further user action required (network initiated USSD-Notify, or no further information needed after mobile initiated operation)\n1: further user action required (network initiated USSD-Request, or further information needed after mobile initiated operation)\n2: USSD terminated by network\n4: Oper" ++ py!"ation not supported"))], (py!"The USSD supplementary service is described in GSM 02.90. It is based on sequences of digits which may be entered by a mobile user with a handset. A sequence entered is sent to the network which replies with an alphanumerical string, for display only, or for display plus request for the next sequenc" ++ py!"e.\nThis command is used to:\n- Enable or disable the CUSD indication sent to the application by the product when an incoming USSD is received\n- Send and receive USSD strings"), none⟩⟩),
   (py!"AT+CCUG", ⟨cat 6, py!"Closed User Group", none⟩),
   (py!"AT+CBST", ⟨cat 7, py!"Bearer Type Selection", none⟩)]

/-- `ATCOMMANDS`, part 10. -/
def atRows10 : List (PyStr × HelpEntry) :=
  [(py!"AT+FCLASS", ⟨cat 7, py!"Select Mode", some ⟨some [(py!"<n>", some py!"0: Data\n1: Fax class 1\n2: Fax class 2")], none, py!"This command puts the modem into a particular operating mode (data or fax).", none⟩⟩),
   (py!"AT+CR", ⟨cat 7, py!"Service Reporting Control", none⟩),
   (py!"AT+CRC", ⟨cat 7, py!"Cellular Result Dodes", some ⟨some [(py!"<mode>", some py!"0: Disable extended reports\n1: Enable extended reports")], none, (py!"This command shows more detailed ring information for an incoming call (voice or data). Instead of the string \"RING\", an extended string is used to indicate which type of call is ringing (e.g. +CRING: VOICE).\nThese extended indications are:\n+CRING: ASYNC     for asynchronous transparent\n+CRING: REL " ++ py!"ASYNC for asynchronous non-transparent\n+CRING: VOICE     for normal speech.\n+CRING: FAX       for fax calls"), none⟩⟩),
   (py!"AT+ILRR", ⟨cat 7, py!"DTE-DCE Local Rate Reporting", none⟩),
   (py!"AT+CRLP", ⟨cat 7, py!"Radio Link Protocol Parameters", none⟩),
   (py!"AT+DOPT", ⟨cat 7, py!"Radio Link Protocol Parameters", none⟩),
   (py!"AT+FTM", ⟨cat 8, py!"Transmit Speed", none⟩),
   (py!"AT+FRM", ⟨cat 8, py!"Receive Speed", none⟩),
   (py!"AT+FTH", ⟨cat 8, py!"HDLC Transmit Speed", none⟩),
   (py!"AT+FRH", ⟨cat 8, py!"HDLC Receive Speed", none⟩)]

/-- `ATCOMMANDS`, part 11. -/
def atRows11 : List (PyStr × HelpEntry) :=
  [(py!"AT+FTS", ⟨cat 8, py!"Stop Transmission and Wait", none⟩),
   (py!"AT+FRS", ⟨cat 8, py!"Receive Silence", none⟩),
   (py!"AT+FDT", ⟨cat 9, py!"Transmit Data", none⟩),
   (py!"AT+FDR", ⟨cat 9, py!"Receive Data", none⟩),
   (py!"AT+FET", ⟨cat 9, py!"Transmit Page Punctuation", none⟩),
   (py!"AT+FPTS", ⟨cat 9, py!"Page Transfer Status Parameters", none⟩),
   (py!"AT+FK", ⟨cat 9, py!"Terminate Session", none⟩),
   (py!"AT+FBOR", ⟨cat 9, py!"Page Transfer Bit Order", none⟩),
   (py!"AT+FBUF", ⟨cat 9, py!"Buffer Size Report", none⟩),
   (py!"AT+FCQ", ⟨cat 9, py!"Copy Quality Checking", none⟩)]

/-- `ATCOMMANDS`, part 12. -/
def atRows12 : List (PyStr × HelpEntry) :=
  [(py!"AT+FCR", ⟨cat 9, py!"Capability to Receive", none⟩),
   (py!"AT+FDIS", ⟨cat 9, py!"Current Session Parameters", none⟩),
   (py!"AT+FDCC", ⟨cat 9, py!"DCE Capabilities Parameters", none⟩),
   (py!"AT+FLID", ⟨cat 9, py!"Local ID String", none⟩),
   (py!"AT+FPHCTO", ⟨cat 9, py!"Page Transfer Timeout Parameter", none⟩),
   (py!"AT+IPR", ⟨cat 10, py!"Fixed DTE Rate", some ⟨some [(py!"<value>", some py!"Baud rates that can be used by the DCE.\n0 enables autobauding on some modems.")], none, py!"This commands specifies the data rate at which the DCE will accept commands.", none⟩⟩),
   (py!"AT+ICF", ⟨cat 10, py!"DTE-DCE Character Framing", some ⟨some [(py!"<format>", some (py!"0: Autodetect\n1: 8 Data 2 Stop\n   <parity> parameter is ignored\n2: 8 Data 1 Parity 1 Stop\n   If no <parity> provided, 3 is used by default as <parity> value\n3: 8 Data 1 Stop\n   <parity> parameter is ignored\n4: 7 Data 2 Stop\n   <parity> parameter is ignored\n5: 7 Data 1 Parity 1 Stop\n   If no <parity>" ++ py!" provided, 3 is used by default as <parity> value\n6: 7 Data 1 Stop\n   <parity> parameter is ignored")), (py!"<parity", some py!"0: Odd\n1: Even\n2: Mark\n3: Space\n4: None")], none, py!"This command determines the local serial port start-stop (asynchronous) character framing that the DCE uses.", none⟩⟩),
   (py!"AT+IFC", ⟨cat 10, py!"DTE-DCE Flow Control", none⟩),
   (py!"AT&C", ⟨cat 10, py!"Set DCD Signal", some ⟨some [(py!"<n>", some py!"0: DCD always on\n1: DCD matches the state of the remote modem's data carrier")], none, py!"This commands controls the Data Carrier Detect (DCD) signal.", none⟩⟩),
   (py!"AT&D", ⟨cat 10, py!"Set DTR Signal", some ⟨some [(py!"<n>", some py!"0: The DTR signal is ignored\n1: Modem switches from data to command mode when DTR switches from ON to OFF\n2: Upon DTR switch from ON to OFF, the call is released")], none, py!"This commands controls the Data Terminal Ready (DTR) signal.", none⟩⟩)]

/-- `ATCOMMANDS`, part 13. -/
def atRows13 : List (PyStr × HelpEntry) :=
  [(py!"AT&S", ⟨cat 10, py!"Set DSR Signal", some ⟨some [(py!"<n>", some py!"0: DSR always on\n1: DSR off in command mode. DSR on in data mode.")], none, py!"This commands controls the Data Set Ready (DSR) signal.", none⟩⟩),
   (py!"ATO", ⟨cat 10, py!"Back to Online Mode", some ⟨none, none, py!"If a connection has been established and the ME is in command mode, this command allows you to return to online data mode.", none⟩⟩),
   (py!"ATQ", ⟨cat 10, py!"Result Code Suppression", some ⟨some [(py!"<n>", some py!"0: DCE transmit result codes\n1: Result codes are suppressed and not transmitted")], none, py!"This command determines whether the mobile equipment sends result codes or not.", none⟩⟩),
   (py!"ATV", ⟨cat 10, py!"DCE Response Format", some ⟨some [(py!"<n>", some py!"0: DCE transmits limited headers and trailers and numeric result codes\n1: DCE transmits full headers and trailers and verbose response text")], none, py!"This command determines the DCE response format, with or without header characters <CR><LF>. Result codes are provided as numeric or verbose.", none⟩⟩),
   (py!"ATZ", ⟨cat 10, py!"Default Configuration", some ⟨none, none, py!"This command restores the configuration profile. Any call is released", none⟩⟩),
   (py!"AT&W", ⟨cat 10, py!"Save Configuration", some ⟨none, none, py!"This command writes the active configuration to a non-volatile memory (EEPROM).", none⟩⟩),
   (py!"AT&T", ⟨cat 10, py!"Auto-Tests", none⟩),
   (py!"ATE", ⟨cat 10, py!"Echo", some ⟨some [(py!"<n>", some py!"0: Characters are not echoed\n1: Characters are echoed")], none, py!"This command is used to determine whether the modem echoes characters received by an external application (DTE).", none⟩⟩),
   (py!"AT&F", ⟨cat 10, py!"Restore Factory Settings", some ⟨some [(py!"<n>", some py!"0: Restore factory settings")], none, py!"This command is used to restore the factory settings from EEPROM.", none⟩⟩),
   (py!"AT&V", ⟨cat 10, py!"Display Configuration", some ⟨some [(py!"<n>", some py!"0 Displays the modem configuration in RAM. Default value if no parameter provided.\n1: Displays the modem configuration in EEPROM.\n2: Displays the modem factory configuration.")], none, py!"This command is used to display the modem configuration.", none⟩⟩)]

/-- `ATCOMMANDS`, part 14. -/
def atRows14 : List (PyStr × HelpEntry) :=
  [(py!"ATI", ⟨cat 10, py!"Request Identification Information", some ⟨some [(py!"<n>", some (py!"0: Displays manufacturer followed by model identification. Equivalent to +CGMI and +CGMM.\n3: Displays revision identification. Equivalent to +CGMR.\n4: Displays modem configuration in RAM. Equivalent to &V0.\n5: Displays modem configuration in EEPROM. Equivalent to &V1.\n6: Displays modem data features" ++ py!". Lists the supported data rates, data modes, and fax classes.\n7: Displays modem voice features."))], none, py!"This command causes the product to transmit one or more lines of specific information text.", none⟩⟩),
   (py!"AT+WMUX", ⟨cat 10, py!"Multiplexing Mode", none⟩),
   (py!"AT+CCED", ⟨cat 11, py!"Cell Environment Description", none⟩),
   (py!"AT+WIND", ⟨cat 11, py!"General Indications", none⟩),
   (py!"AT+ADC", ⟨cat 11, py!"Analog Digital Converter Measurements", none⟩),
   (py!"AT+CMER", ⟨cat 11, py!"Mobile Equipment Event Reporting", none⟩),
   (py!"AT+CIND", ⟨cat 11, py!"Indicator Control", none⟩),
   (py!"AT+CMEC", ⟨cat 11, py!"Mobile Equipment Control Mode", none⟩),
   (py!"AT+WLPR", ⟨cat 11, py!"Read Language Preference", none⟩),
   (py!"AT+WLPW", ⟨cat 11, py!"Write Language Preference", none⟩)]

/-- `ATCOMMANDS`, part 15. -/
def atRows15 : List (PyStr × HelpEntry) :=
  [(py!"AT+WIOR", ⟨cat 11, py!"Read GPIO Value", none⟩),
   (py!"AT+WIOW", ⟨cat 11, py!"Write GPIO Value", none⟩),
   (py!"AT+WIOM", ⟨cat 11, py!"Input/Output Management", none⟩),
   (py!"AT+WAC", ⟨cat 11, py!"Abort Command", none⟩),
   (py!"AT+WTONE", ⟨cat 11, py!"Play Tone", none⟩),
   (py!"AT+WDTMF", ⟨cat 11, py!"Play DTMF Tone", none⟩),
   (py!"AT+WDWL", ⟨cat 11, py!"Downloading", none⟩),
   (py!"AT+WVR", ⟨cat 11, py!"Voice Rate", none⟩),
   (py!"AT+WDR", ⟨cat 11, py!"Data Rate", none⟩),
   (py!"AT+WSVG", ⟨cat 11, py!"Select Voice Gain", none⟩)]

/-- `ATCOMMANDS`, part 16. -/
def atRows16 : List (PyStr × HelpEntry) :=
  [(py!"AT+WSTR", ⟨cat 11, py!"Status Request", none⟩)]

/-- `ATCOMMANDS`, atcommands.py:7-406. -/
def atRows : List (PyStr × HelpEntry) :=
  atRows1 ++ atRows2 ++ atRows3 ++ atRows4 ++ atRows5 ++ atRows6 ++ atRows7 ++ atRows8 ++ atRows9 ++ atRows10 ++ atRows11 ++ atRows12 ++ atRows13 ++ atRows14 ++ atRows15 ++ atRows16

end Gsm
