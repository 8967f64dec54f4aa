import Verif.Model.Terminal
/-! # The table of AT commands: tools/gsmtermlib/atcommands.py

The values, defaults and descriptions of the commands are left out. -/
namespace Gsm

/-- `CATEGORIES`, atcommands.py:2. -/
def atCategories : List PyStr :=
  [py!"General", py!"Call Control", py!"Network Service", py!"Security", py!"Phonebook", py!"SMS", py!"Supplementary Services", py!"Data", py!"Fax", py!"Fax Class 2", py!"V24-V25", py!"Specific"]

/-- `ATCOMMANDS`, atcommands.py:7-: command, number of its category, name, and whether there is more. -/
def atTable : List (PyStr × Nat × PyStr × Bool) :=
  [(py!"AT+CGMI", 0, py!"Manufacturer Identification", true),
   (py!"AT+CGMM", 0, py!"Request Model Identification", true),
   (py!"AT+CGMR", 0, py!"Request Revision Identification", true),
   (py!"AT+CGSN", 0, py!"Product Serial Number", true),
   (py!"AT+CSCS", 0, py!"Select TE Character Set", true),
   (py!"AT+WPCS", 0, py!"Phonebook Character Set", true),
   (py!"AT+CIMI", 0, py!"Request IMSI", true),
   (py!"AT+CCID", 0, py!"Card Identification", true),
   (py!"AT+GCAP", 0, py!"Capabilities List", true),
   (py!"A/", 0, py!"Repeat Last Command", true),
   (py!"AT+CPOF", 0, py!"Power Off", true),
   (py!"AT+CFUN", 0, py!"Set Phone Functionality", true),
   (py!"AT+CPAS", 0, py!"Phone Activity Status", true),
   (py!"AT+CMEE", 0, py!"Report Mobile Equipment Errors", true),
   (py!"AT+CKPD", 0, py!"Keypad Control", true),
   (py!"AT+CCLK", 0, py!"Clock Management", true),
   (py!"AT+CALA", 0, py!"Alarm Management", true),
   (py!"ATD", 1, py!"Dial command", true),
   (py!"ATH", 1, py!"Hang-Up command", true),
   (py!"ATA", 1, py!"Answer a Call", true),
   (py!"AT+CEER", 1, py!"Extended Error Report", true),
   (py!"AT+VTD", 1, py!"DTMF Signals - set tone duration", true),
   (py!"AT+VTS", 1, py!"DTMF Signals - send tone", true),
   (py!"ATDL", 1, py!"Redial Last Telephone Number", true),
   (py!"AT%D", 1, py!"Automatic Dialing with DTR", true),
   (py!"ATS0", 1, py!"Automatic Answer", true),
   (py!"AT+CICB", 1, py!"Incoming Call Bearer", true),
   (py!"AT+CSNS", 1, py!"Single Numbering Scheme", true),
   (py!"AT+VGR", 1, py!"Gain Control - Reception", true),
   (py!"AT+VGT", 1, py!"Gain Control - Transmission", true),
   (py!"AT+CMUT", 1, py!"Microphone Mute Control", true),
   (py!"AT+CVHU", 1, py!"Voice Hangup Control", true),
   (py!"AT+CSQ", 2, py!"Signal Quality", true),
   (py!"AT+COPS", 2, py!"Operator Selection", true),
   (py!"AT+CREG", 2, py!"Network Registration", true),
   (py!"AT+WOPN", 2, py!"Read Operator Name", false),
   (py!"AT+WOPN", 2, py!"Selection of Preferred PLMN List", false),
   (py!"AT+CPLS", 2, py!"Selection of Preferred PLMN List", false),
   (py!"AT+CPOL", 2, py!"Preferred Operator List", false),
   (py!"AT+COPN", 2, py!"Read Operator Name", true),
   (py!"AT+CPIN", 3, py!"Enter PIN", true),
   (py!"AT+CPIN2", 3, py!"Enter PIN2", true),
   (py!"AT+CPINC", 3, py!"PIN Remaining Attempt Number", true),
   (py!"AT+CLCK", 3, py!"Call Barring", false),
   (py!"AT+CPWD", 3, py!"Change Password", false),
   (py!"AT+CPBS", 4, py!"Select Phonebook Memory Storage", true),
   (py!"AT+CPBR", 4, py!"Read Phonebook Entries", true),
   (py!"AT+CPBF", 4, py!"Find Phonebook Entries", true),
   (py!"AT+CPBW", 4, py!"Write Phonebook Entry", true),
   (py!"AT+CPBP", 4, py!"Phonebook Phone Search", false),
   (py!"AT+CPBN", 4, py!"Move Action in Phonebook", false),
   (py!"AT+CNUM", 4, py!"Subscriber Number", true),
   (py!"AT+WAIP", 4, py!"Avoid Phonebook Initialization", false),
   (py!"AT+WDCP", 4, py!"Delete Calls Phonebook", false),
   (py!"AT+CSVM", 4, py!"Set Voice Mail Number", false),
   (py!"AT+CSMS", 5, py!"Select Message Service", true),
   (py!"AT+CNMA", 5, py!"New Message Acknowledgment", true),
   (py!"AT+CPMS", 5, py!"Preferred Message Storage", true),
   (py!"AT+CMGF", 5, py!"Preferred Message Format", true),
   (py!"AT+CSAS", 5, py!"Save Settings", false),
   (py!"AT+CRES", 5, py!"Restore Settings", false),
   (py!"AT+CNMI", 5, py!"New Message Indication", true),
   (py!"AT+CMGR", 5, py!"Read Message", true),
   (py!"AT+CMGL", 5, py!"List Message", true),
   (py!"AT+CMGS", 5, py!"Send Message", true),
   (py!"AT+CMGW", 5, py!"Write Message to Memory", false),
   (py!"AT+CMSS", 5, py!"Send Message from Storage", true),
   (py!"AT+CSMP", 5, py!"Set Text Mode Parameters", true),
   (py!"AT+CMGD", 5, py!"Delete Message", true),
   (py!"AT+CSCA", 5, py!"Service Center Address", true),
   (py!"AT+CSCB", 5, py!"Select Cell Broadcast Message Types", true),
   (py!"AT+WCBM", 5, py!"Cell Broadcast Message Identifiers", false),
   (py!"AT+WMSC", 5, py!"Message Status Modification", false),
   (py!"AT+WMGO", 5, py!"Message Overwriting", false),
   (py!"AT+WUSS", 5, py!"Unchange SMS Status", false),
   (py!"AT+CCFC", 6, py!"Call Forwarding", false),
   (py!"AT+CCWA", 6, py!"Call Waiting", false),
   (py!"AT+CLIR", 6, py!"Calling Line Identification Restriction", true),
   (py!"AT+CLIP", 6, py!"Calling Line Identification Presentation", true),
   (py!"AT+COLP", 6, py!"Connected Line Identification Presentation", false),
   (py!"AT+CAOC", 6, py!"Advice Of Charge", false),
   (py!"AT+CAMM", 6, py!"Accumulated Call Meter Maximum", false),
   (py!"AT+CPUC", 6, py!"Price Per Unit and Currency Table", false),
   (py!"AT+CHLD", 6, py!"Call Related Supplementary Services", false),
   (py!"AT+CHLD", 6, py!"Call Related Supplementary Services", false),
   (py!"AT+CLCC", 6, py!"List Current Calls", true),
   (py!"AT+CSSN", 6, py!"Supplementary Service Notifications", false),
   (py!"AT+CUSD", 6, py!"Unstructured Supplementary Service Data", true),
   (py!"AT+CCUG", 6, py!"Closed User Group", false),
   (py!"AT+CBST", 7, py!"Bearer Type Selection", false),
   (py!"AT+FCLASS", 7, py!"Select Mode", true),
   (py!"AT+CR", 7, py!"Service Reporting Control", false),
   (py!"AT+CRC", 7, py!"Cellular Result Dodes", true),
   (py!"AT+ILRR", 7, py!"DTE-DCE Local Rate Reporting", false),
   (py!"AT+CRLP", 7, py!"Radio Link Protocol Parameters", false),
   (py!"AT+DOPT", 7, py!"Radio Link Protocol Parameters", false),
   (py!"AT+FTM", 8, py!"Transmit Speed", false),
   (py!"AT+FRM", 8, py!"Receive Speed", false),
   (py!"AT+FTH", 8, py!"HDLC Transmit Speed", false),
   (py!"AT+FRH", 8, py!"HDLC Receive Speed", false),
   (py!"AT+FTS", 8, py!"Stop Transmission and Wait", false),
   (py!"AT+FRS", 8, py!"Receive Silence", false),
   (py!"AT+FDT", 9, py!"Transmit Data", false),
   (py!"AT+FDR", 9, py!"Receive Data", false),
   (py!"AT+FET", 9, py!"Transmit Page Punctuation", false),
   (py!"AT+FPTS", 9, py!"Page Transfer Status Parameters", false),
   (py!"AT+FK", 9, py!"Terminate Session", false),
   (py!"AT+FBOR", 9, py!"Page Transfer Bit Order", false),
   (py!"AT+FBUF", 9, py!"Buffer Size Report", false),
   (py!"AT+FCQ", 9, py!"Copy Quality Checking", false),
   (py!"AT+FCR", 9, py!"Capability to Receive", false),
   (py!"AT+FDIS", 9, py!"Current Session Parameters", false),
   (py!"AT+FDCC", 9, py!"DCE Capabilities Parameters", false),
   (py!"AT+FLID", 9, py!"Local ID String", false),
   (py!"AT+FPHCTO", 9, py!"Page Transfer Timeout Parameter", false),
   (py!"AT+IPR", 10, py!"Fixed DTE Rate", true),
   (py!"AT+ICF", 10, py!"DTE-DCE Character Framing", true),
   (py!"AT+IFC", 10, py!"DTE-DCE Flow Control", false),
   (py!"AT&C", 10, py!"Set DCD Signal", true),
   (py!"AT&D", 10, py!"Set DTR Signal", true),
   (py!"AT&S", 10, py!"Set DSR Signal", true),
   (py!"ATO", 10, py!"Back to Online Mode", true),
   (py!"ATQ", 10, py!"Result Code Suppression", true),
   (py!"ATV", 10, py!"DCE Response Format", true),
   (py!"ATZ", 10, py!"Default Configuration", true),
   (py!"AT&W", 10, py!"Save Configuration", true),
   (py!"AT&T", 10, py!"Auto-Tests", false),
   (py!"ATE", 10, py!"Echo", true),
   (py!"AT&F", 10, py!"Restore Factory Settings", true),
   (py!"AT&V", 10, py!"Display Configuration", true),
   (py!"ATI", 10, py!"Request Identification Information", true),
   (py!"AT+WMUX", 10, py!"Multiplexing Mode", false),
   (py!"AT+CCED", 11, py!"Cell Environment Description", false),
   (py!"AT+WIND", 11, py!"General Indications", false),
   (py!"AT+ADC", 11, py!"Analog Digital Converter Measurements", false),
   (py!"AT+CMER", 11, py!"Mobile Equipment Event Reporting", false),
   (py!"AT+CIND", 11, py!"Indicator Control", false),
   (py!"AT+CMEC", 11, py!"Mobile Equipment Control Mode", false),
   (py!"AT+WLPR", 11, py!"Read Language Preference", false),
   (py!"AT+WLPW", 11, py!"Write Language Preference", false),
   (py!"AT+WIOR", 11, py!"Read GPIO Value", false),
   (py!"AT+WIOW", 11, py!"Write GPIO Value", false),
   (py!"AT+WIOM", 11, py!"Input/Output Management", false),
   (py!"AT+WAC", 11, py!"Abort Command", false),
   (py!"AT+WTONE", 11, py!"Play Tone", false),
   (py!"AT+WDTMF", 11, py!"Play DTMF Tone", false),
   (py!"AT+WDWL", 11, py!"Downloading", false),
   (py!"AT+WVR", 11, py!"Voice Rate", false),
   (py!"AT+WDR", 11, py!"Data Rate", false),
   (py!"AT+WSVG", 11, py!"Select Voice Gain", false),
   (py!"AT+WSTR", 11, py!"Status Request", false)]

/-- `_initAtCommandsTrie`, terminal.py:599-607: what is stored. -/
def atCommands : List (PyStr × Option CmdHelp) :=
  atTable.map fun (c, i, name, long) => (c, some ⟨atCategories.getD i [], name, long⟩)

end Gsm
