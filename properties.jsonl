{"id": "C01", "title": "GSM-7 text round trip", "statement": "If encodeGsm7(t) returns a value, then decodeGsm7 of it returns exactly t, provided t contains no ESC (U+001B) character.", "quantifier": "every Unicode text t of every length", "why_tests_cant": "unbounded set of texts; escapes interact with neighbouring characters", "anchors": [{"file": "gsmmodem/pdu.py", "symbols": ["encodeGsm7", "decodeGsm7", "GSM7_BASIC", "GSM7_EXTENDED"]}]}
{"id": "C02", "title": "GSM-7 acceptance", "statement": "encodeGsm7(t) succeeds iff every character of t is in the GSM 03.38 default alphabet or its extension table as shipped; otherwise it raises (ValueError; TypeError when the first offending character is U+00FF). With discardInvalid=True it returns the encoding of t with the unsupported characters removed, never raising for texts without U+00FF.", "quantifier": "every text t, both values of discardInvalid", "why_tests_cant": "whole Unicode range times every length", "anchors": [{"file": "gsmmodem/pdu.py", "symbols": ["encodeGsm7", "GSM7_BASIC", "GSM7_EXTENDED"]}]}
{"id": "C03", "title": "Septet packing is the GSM bit stream", "statement": "The octets returned by packSeptets(xs, padBits=p) read as a little-endian bit stream are (7-p) mod 7 zero fill bits (none for p=0), then the 7 low bits of each x in order, then fewer than 8 zero bits. In particular the output has ceil((7n + fill)/8) octets, each in 0..255.", "quantifier": "every non-empty list of octets and every pad value 0..6", "why_tests_cant": "bit offsets cycle with the length; all lengths and all bit patterns", "anchors": [{"file": "gsmmodem/pdu.py", "symbols": ["packSeptets"]}]}
{"id": "C04", "title": "Septet unpacking inverts packing", "statement": "unpackSeptets(packSeptets(xs)) returns xs for every list of septets, except that when the number of septets is a multiple of 8 and the last septet is 0 ('@') that last septet is dropped.", "quantifier": "every non-empty list of septets, with or without an octet limit at least as large as the packed length", "why_tests_cant": "the failing region depends on length mod 8 and the last value, at every length", "anchors": [{"file": "gsmmodem/pdu.py", "symbols": ["packSeptets", "unpackSeptets"]}]}
{"id": "C05", "title": "Septet unpacking respects its octet limit", "statement": "unpackSeptets(it, n) consumes exactly min(n, remaining) octets of the iterator for n>=1, so whatever follows (e.g. the next PDU field) is untouched, and the result does not depend on the following octets.", "quantifier": "every octet stream, limit and suffix", "why_tests_cant": "independence from arbitrary suffixes", "anchors": [{"file": "gsmmodem/pdu.py", "symbols": ["unpackSeptets"]}]}
{"id": "C06", "title": "UCS2 round trip", "statement": "For every text of code points <= U+FFFF, decodeUcs2(iter(encodeUcs2(t)), len) == t; encodeUcs2 raises ValueError iff some code point is above U+FFFF.", "quantifier": "every text", "why_tests_cant": "unbounded texts, all code points", "anchors": [{"file": "gsmmodem/pdu.py", "symbols": ["encodeUcs2", "decodeUcs2"]}]}
{"id": "C07", "title": "UCS2 decoding is total and bounded", "statement": "decodeUcs2(it, n) never raises; it returns min(ceil(n/2), floor(available/2)) characters, the i-th being octet pair i big-endian, even for odd or short data.", "quantifier": "every octet stream and every n", "why_tests_cant": "all malformed inputs", "anchors": [{"file": "gsmmodem/pdu.py", "symbols": ["decodeUcs2"]}]}
{"id": "C08", "title": "Semi-octet round trip", "statement": "decodeSemiOctets(encodeSemiOctets(d)) == d for every string of decimal digits, and the encoding has ceil(len/2) octets.", "quantifier": "every digit string", "why_tests_cant": "all lengths and parities", "anchors": [{"file": "gsmmodem/pdu.py", "symbols": ["encodeSemiOctets", "decodeSemiOctets"]}]}
{"id": "C09", "title": "Phone number address field round trip", "statement": "For every number of 1..255 digits (1..508 digits in SMSC form), with or without a leading '+', decoding the encoded address field returns the same number, reports as bytes-read exactly the field's length and leaves the following octets unread; this holds for destination and SMSC forms.", "quantifier": "every phone number and every following octets", "why_tests_cant": "length/parity/type-of-number combinations, arbitrary following bytes", "anchors": [{"file": "gsmmodem/pdu.py", "symbols": ["_encodeAddressField", "_decodeAddressField"]}]}
{"id": "C10", "title": "Alphanumeric address field round trip", "statement": "For every address that is not a phone number, made of GSM-7 characters other than ESC and short enough for its length octet, decoding the encoded field returns the same address and the correct number of octets read, unless its septet count is a multiple of 8 and it ends in '@'.", "quantifier": "every alphanumeric address and every following octets", "why_tests_cant": "unbounded texts", "anchors": [{"file": "gsmmodem/pdu.py", "symbols": ["_encodeAddressField", "_decodeAddressField"]}]}
{"id": "C11", "title": "Relative validity period is the best representable one", "statement": "For a timedelta v of at least 5 minutes and at most 441 days (plus less than a day) the encoded octet x is in 0..255, stands for a period <= v, and no octet stands for a period strictly between that and v. Above that range ValueError is raised. Every octet decodes to a period that re-encodes to the same octet.", "quantifier": "every timedelta, every octet", "why_tests_cant": "continuous range with four different step sizes", "anchors": [{"file": "gsmmodem/pdu.py", "symbols": ["_encodeRelativeValidityPeriod", "_decodeRelativeValidityPeriod"]}]}
{"id": "C12", "title": "Too-short validity periods are rejected", "statement": "encodeSmsSubmitPdu with a relative validity below 5 minutes (zero and negative included) never produces a PDU: it raises ValueError.", "quantifier": "every timedelta below five minutes, every other argument", "why_tests_cant": "all arguments", "anchors": [{"file": "gsmmodem/pdu.py", "symbols": ["encodeSmsSubmitPdu", "_encodeRelativeValidityPeriod"]}]}
{"id": "C13", "title": "Timestamp round trip", "statement": "Every aware datetime in years 1969..2068 with a UTC offset strictly between -20h and +20h survives encode/decode: same date, same time to the second, and the same UTC offset truncated to a multiple of 15 minutes. The encoding is always 7 octets.", "quantifier": "every valid calendar date, time and offset", "why_tests_cant": "all dates including leap days, both offset signs", "anchors": [{"file": "gsmmodem/pdu.py", "symbols": ["_encodeTimestamp", "_decodeTimestamp", "SmsPduTzInfo", "SmsPduTzInfo._setPduOffsetStr", "SmsPduTzInfo.utcoffset", "SmsPduTzInfo.dst", "SmsPduTzInfo.__init__"]}]}
{"id": "C14", "title": "UDH information element round trip", "statement": "A Concatenation element (reference < 65536, parts and number < 256) and a PortAddress element (ports < 65536) decode back to the same values from their encoding, whatever octets follow; the 8-bit form is used exactly when the values fit. Any unrecognised element with up to 255 data octets round trips unchanged.", "quantifier": "all field values and any following octets", "why_tests_cant": "all value combinations", "anchors": [{"file": "gsmmodem/pdu.py", "symbols": ["InformationElement", "Concatenation", "PortAddress", "IEI_CLASS_MAP", "InformationElement.__new__", "InformationElement.decode", "InformationElement.encode", "InformationElement.__len__", "Concatenation.encode", "PortAddress.encode"]}]}
{"id": "C15", "title": "Data coding choice", "statement": "encodeSmsSubmitPdu marks the PDU GSM-7 iff every character of the text is GSM-7 encodable, else UCS2; the flash flag sets the class-0 bits without changing the alphabet the decoder picks.", "quantifier": "every text and flag combination", "why_tests_cant": "all texts", "anchors": [{"file": "gsmmodem/pdu.py", "symbols": ["encodeSmsSubmitPdu", "_decodeDataCoding"]}]}
{"id": "C16", "title": "First octet flags", "statement": "Every PDU produced is an SMS-SUBMIT whose TP-UDHI bit is set iff the message is multipart, TP-SRR iff a status report was requested, TP-RD iff duplicates are rejected, and whose TP-VPF bits tell none/relative/absolute exactly as the validity argument.", "quantifier": "all argument combinations", "why_tests_cant": "all combinations with all texts", "anchors": [{"file": "gsmmodem/pdu.py", "symbols": ["encodeSmsSubmitPdu"]}]}
{"id": "C17", "title": "Single-part SUBMIT round trip", "statement": "When the text fits one part, decodeSmsPdu of the produced PDU returns the same number, text, reference, SMSC and validity octet/timestamp that were given (text exception: a trailing '@' at a septet count multiple of 8).", "quantifier": "all numbers, texts, references, SMSCs, validity values and flags", "why_tests_cant": "product of all field encodings", "anchors": [{"file": "gsmmodem/pdu.py", "symbols": ["encodeSmsSubmitPdu", "decodeSmsPdu", "_decodeUserData"]}]}
{"id": "C18", "title": "Multipart SUBMIT structure", "statement": "A long text yields floor(len/limit)+1 PDUs (limit 160 or 70); the i-th carries a concatenation header with the given reference, the total count and number i, and the same destination, and decodes to the i-th slice of the text.", "quantifier": "every text and reference", "why_tests_cant": "every length, both alphabets", "anchors": [{"file": "gsmmodem/pdu.py", "symbols": ["encodeSmsSubmitPdu", "decodeSmsPdu", "Concatenation"]}]}
{"id": "C19", "title": "Multipart text is not lost", "statement": "Joining the slices sent in the produced PDUs gives back the whole text. (The code violates this: the exact set of lengths for which text is lost is proved.)", "quantifier": "every text length", "why_tests_cant": "failure appears only in windows of lengths (e.g. 307..319 for GSM-7)", "anchors": [{"file": "gsmmodem/pdu.py", "symbols": ["encodeSmsSubmitPdu", "MAX_MESSAGE_LENGTH"]}]}
{"id": "C20", "title": "User data fits in one SMS", "statement": "In every PDU produced for a text without extension-table characters the user data (header included) is at most 140 octets and the declared user data length is right. (With extension characters the code can exceed it: proved with a witness.)", "quantifier": "every text", "why_tests_cant": "all lengths and character mixes", "anchors": [{"file": "gsmmodem/pdu.py", "symbols": ["encodeSmsSubmitPdu"]}]}
{"id": "C21", "title": "TPDU length", "statement": "Pdu.tpduLength equals the number of octets after the SMSC field, and equals tpdu_length reported by decodeSmsPdu, whenever no SMSC is given; with an explicit SMSC it is too large by exactly the SMSC field's length minus one.", "quantifier": "all arguments", "why_tests_cant": "all arguments", "anchors": [{"file": "gsmmodem/pdu.py", "symbols": ["encodeSmsSubmitPdu", "decodeSmsPdu", "Pdu", "Pdu.__init__"]}]}
{"id": "C22", "title": "Hex form of a PDU", "statement": "decodeSmsPdu(str(pdu)) gives the same outcome as decodeSmsPdu(pdu.data) for all octets, upper- and lower-case hex alike; a string that is not an even number of hex digits raises EncodingError.", "quantifier": "all octet strings, all strings", "why_tests_cant": "all inputs", "anchors": [{"file": "gsmmodem/pdu.py", "symbols": ["decodeSmsPdu", "Pdu", "toByteArray", "Pdu.__str__"]}]}
{"id": "C23", "title": "SMS-DELIVER decoding", "statement": "A well-formed SMS-DELIVER PDU (any SMSC, originator, PID, timestamp, alphabet and text without header) decodes to exactly its fields.", "quantifier": "all field values", "why_tests_cant": "product of all field encodings", "anchors": [{"file": "gsmmodem/pdu.py", "symbols": ["decodeSmsPdu", "_decodeUserData"]}]}
{"id": "C24", "title": "Concatenated GSM-7 DELIVER decoding", "statement": "A GSM-7 message with a user data header decodes to its header elements and full text. (Violated when the header length + 1 is a multiple of 7, e.g. 16-bit concatenation: the first character is lost. Both sides are proved.)", "quantifier": "all header lengths and texts", "why_tests_cant": "depends on header length mod 7", "anchors": [{"file": "gsmmodem/pdu.py", "symbols": ["_decodeUserData", "unpackSeptets"]}]}
{"id": "C25", "title": "SMS-STATUS-REPORT decoding", "statement": "A well-formed status report decodes to its reference, recipient, both timestamps and status octet.", "quantifier": "all field values", "why_tests_cant": "all field values", "anchors": [{"file": "gsmmodem/pdu.py", "symbols": ["decodeSmsPdu"]}]}
{"id": "C26", "title": "Undecodable PDUs raise EncodingError", "statement": "If decodeSmsPdu cannot decode its input it raises EncodingError. (Violated: truncated PDUs raise StopIteration and an empty GSM-7 message raises TypeError; proved with witnesses. What is guaranteed is proved.)", "quantifier": "all inputs", "why_tests_cant": "all malformed inputs", "anchors": [{"file": "gsmmodem/pdu.py", "symbols": ["decodeSmsPdu"]}]}
{"id": "C27", "title": "Line framing", "statement": "Every non-empty CRLF-terminated line received is handed up exactly once, in order, with its exact characters, regardless of timing; empty lines are dropped and incomplete ones retained.", "quantifier": "every byte stream and every interleaving with commands", "why_tests_cant": "all streams and schedules", "anchors": [{"file": "gsmmodem/serial_comms.py", "symbols": ["SerialComms._readLoop", "SerialComms._handleLineRead"]}]}
{"id": "C28", "title": "A command gets exactly its response", "statement": "write() returns exactly the lines received after the command was sent, up to and including the first final result code (a line beginning OK or ERROR, a +CME/+CMS ERROR: <n> line, or COMMAND NOT SUPPORT).", "quantifier": "every response line sequence and following traffic", "why_tests_cant": "all line sequences", "anchors": [{"file": "gsmmodem/serial_comms.py", "symbols": ["SerialComms.write", "SerialComms._handleLineRead", "RESPONSE_TERM"]}]}
{"id": "C29", "title": "No line is lost or duplicated between responses and notifications", "statement": "At any moment the lines received so far are, in order, those placed in responses plus those delivered in notifications plus those in the pending notification; nothing is in two places.", "quantifier": "every interleaving of received bytes, command starts, completions and timeouts", "why_tests_cant": "all schedules", "anchors": [{"file": "gsmmodem/serial_comms.py", "symbols": ["SerialComms._handleLineRead", "SerialComms.write"]}]}
{"id": "C30", "title": "Timeouts report the partial response", "statement": "If no final result code arrives in time write() raises TimeoutException carrying exactly the lines received since the command was sent (None if there were none), and later lines go to the notification callback until the next command.", "quantifier": "every partial response and later traffic", "why_tests_cant": "all schedules", "anchors": [{"file": "gsmmodem/serial_comms.py", "symbols": ["SerialComms.write"]}, {"file": "gsmmodem/exceptions.py", "symbols": ["TimeoutException"]}]}
{"id": "C31", "title": "Prompt response", "statement": "A write() with expectedResponseTermSeq returns as soon as the received characters end in that sequence, even without end of line.", "quantifier": "every sequence and every preceding output", "why_tests_cant": "all streams", "anchors": [{"file": "gsmmodem/serial_comms.py", "symbols": ["SerialComms._readLoop", "SerialComms.write"]}]}
{"id": "C32", "title": "Error reply mapping", "statement": "GsmModem.write raises CommandError iff the last response line contains ERROR or equals COMMAND NOT SUPPORT (with parseError); +CME ERROR: n / +CMS ERROR: n raise CmeError/CmsError carrying code n, specialised to PinRequired (11), PukRequired (12), IncorrectPin (16) and SmscNumberUnknown (CMS 330).", "quantifier": "all response lines and codes", "why_tests_cant": "all codes and lines", "anchors": [{"file": "gsmmodem/modem.py", "symbols": ["GsmModem.write"]}, {"file": "gsmmodem/exceptions.py", "symbols": ["CmeError", "CmsError", "CommandError"]}]}
{"id": "C33", "title": "Busy retry", "statement": "When the modem answers busy (error 515 or 14) k times and then anything else, the same command is written exactly k+1 times and the caller sees only the final outcome; on success the inter-command delay becomes 0.1s (first busy code 515) or 0 (14).", "quantifier": "every k and every final answer", "why_tests_cant": "unbounded number of retries", "anchors": [{"file": "gsmmodem/modem.py", "symbols": ["GsmModem.write"]}]}
{"id": "C34", "title": "PIN is submitted at most once", "statement": "connect(pin) submits the PIN only after the modem answered AT+CPIN? with something other than READY, and at most once (apart from busy retries), whatever the modem answers; without a pin it is never submitted and a locked SIM raises PinRequiredError.", "quantifier": "every modem behaviour", "why_tests_cant": "all possible modem reply histories", "anchors": [{"file": "gsmmodem/modem.py", "symbols": ["GsmModem.connect", "GsmModem._unlockSim"]}]}
{"id": "C35", "title": "smsTextMode reflects the modem", "statement": "While connected, smsTextMode always equals the mode of the last AT+CMGF command the modem accepted, even when some changes are rejected or time out.", "quantifier": "every sequence of mode changes and every modem behaviour", "why_tests_cant": "all histories", "anchors": [{"file": "gsmmodem/modem.py", "symbols": ["GsmModem.smsTextMode", "GsmModem._compileSmsRegexes"]}]}
{"id": "C36", "title": "SMS memory selection", "statement": "When readStoredSms/deleteStoredSms/listStoredSms name a memory, the read/delete/list command is only sent while that memory is the last one the modem accepted.", "quantifier": "every call history and modem behaviour", "why_tests_cant": "all histories", "anchors": [{"file": "gsmmodem/modem.py", "symbols": ["GsmModem._setSmsMemory", "GsmModem.readStoredSms", "GsmModem.deleteStoredSms", "GsmModem.listStoredSms"]}]}
{"id": "C37", "title": "SMS reference counter stays an octet", "statement": "After any history of sendSms calls the next message reference is in 0..255 as long as the modem's references are natural numbers, so encoding never fails because of it, and it follows the last reference returned by the modem modulo 256.", "quantifier": "every history of sends and modem replies", "why_tests_cant": "unbounded histories", "anchors": [{"file": "gsmmodem/modem.py", "symbols": ["GsmModem.sendSms"]}]}
{"id": "C38", "title": "sendSms transmission order", "statement": "In PDU mode sendSms writes, for each part in order, AT+CMGS=<tpdu length> followed by that part's hex and Ctrl-Z, stops at the first failure, and returns the reference of the last part.", "quantifier": "every text, number and modem behaviour", "why_tests_cant": "all texts and replies", "anchors": [{"file": "gsmmodem/modem.py", "symbols": ["GsmModem.sendSms"]}]}
{"id": "C39", "title": "Delivery status", "statement": "SentSms.status is ENROUTE until a report with its reference arrives, then DELIVERED iff the last such report's status is 0, else FAILED; reports for other references never change it.", "quantifier": "every history of sends and reports", "why_tests_cant": "unbounded histories, reference reuse", "anchors": [{"file": "gsmmodem/modem.py", "symbols": ["SentSms.status", "GsmModem._handleSmsStatusReport", "GsmModem.sendSms"]}]}
{"id": "C40", "title": "listStoredSms (PDU mode) parsing", "statement": "For a listing of header/PDU pairs that all decode, the returned messages are exactly those, in order, each with its own status and content, and with delete=True and a specific status exactly the returned indices are deleted.", "quantifier": "every listing", "why_tests_cant": "all listings", "anchors": [{"file": "gsmmodem/modem.py", "symbols": ["GsmModem.listStoredSms"]}]}
{"id": "C41", "title": "listStoredSms (text mode) parsing", "statement": "For a text-mode listing whose bodies are non-empty, contain no line that looks like a header or equals OK, the returned messages are exactly those, in order, with bodies joined by newline, and exactly their indices are deleted.", "quantifier": "every listing", "why_tests_cant": "all listings", "anchors": [{"file": "gsmmodem/modem.py", "symbols": ["GsmModem.listStoredSms"]}]}
{"id": "C42", "title": "Incoming SMS notification", "statement": "On +CMTI the message is read from the announced memory and index, deleted, and only then passed to the callback, exactly once; if the read or delete fails the callback is not called and after a failed read nothing is deleted.", "quantifier": "every notification and modem behaviour", "why_tests_cant": "all failure points", "anchors": [{"file": "gsmmodem/modem.py", "symbols": ["GsmModem._handleSmsReceived"]}]}
{"id": "C43", "title": "Notification dispatch", "statement": "A notification batch triggers at most one handler: that of the first recognised line, in the fixed priority order. (So two +CMTI lines in one batch lose the second: proved.)", "quantifier": "every batch", "why_tests_cant": "all batches", "anchors": [{"file": "gsmmodem/modem.py", "symbols": ["GsmModem._GsmModem__threadedHandleModemNotification"]}]}
{"id": "C44", "title": "USSD response parsing", "statement": "For a batch with several +CUSD results the session is active iff all have status 1, and the message is that of the last result that is not a session release; a single result is active iff its status is 1. reply() on an inactive session raises and sends nothing; cancel() sends nothing then.", "quantifier": "every batch of results", "why_tests_cant": "all batches", "anchors": [{"file": "gsmmodem/modem.py", "symbols": ["GsmModem._parseCusdResponse", "Ussd.reply", "Ussd.cancel"]}]}
{"id": "C45", "title": "Network coverage wait", "statement": "waitForNetworkCoverage returns only a signal strength > 0 that the modem just reported, raises InvalidStateException iff registration is reported denied/not searching before registration was seen, and never checks signal before registration is reported or the query is unusable.", "quantifier": "every sequence of modem replies and every timeout point", "why_tests_cant": "unbounded polling histories", "anchors": [{"file": "gsmmodem/modem.py", "symbols": ["GsmModem.waitForNetworkCoverage", "GsmModem.signalStrength"]}]}
{"id": "C46", "title": "Active call table", "statement": "Every entry in activeCalls is keyed by its own id and is active; ended or hung-up calls are not in it; handling any notification or hangup preserves this.", "quantifier": "every history of call events", "why_tests_cant": "all histories", "anchors": [{"file": "gsmmodem/modem.py", "symbols": ["GsmModem._handleIncomingCall", "GsmModem._handleCallEnded", "Call.hangup", "GsmModem.dial"]}]}
{"id": "C47", "title": "Call ids are unique", "statement": "A new call never takes over the id of another active call. (Violated: id = number of active calls + 1; proved with a witness history and proved safe when ids are contiguous.)", "quantifier": "every history of call events", "why_tests_cant": "needs a particular history", "anchors": [{"file": "gsmmodem/modem.py", "symbols": ["GsmModem._handleIncomingCall", "GsmModem.dial"]}]}
{"id": "C48", "title": "Hangup and answer are idempotent", "statement": "Once a hangup() has been accepted the call is inactive and no further hangup() of it writes anything; once an answer() has been accepted or a hangup() has been called, no further answer() writes anything. (A call ended by the network can still be answered: proved as a defect.)", "quantifier": "every sequence of answer/hangup calls", "why_tests_cant": "all sequences", "anchors": [{"file": "gsmmodem/modem.py", "symbols": ["Call.hangup", "IncomingCall.answer", "IncomingCall.hangup"]}]}
{"id": "C49", "title": "DTMF command", "statement": "sendDtmfTone on an answered call writes one AT command containing one tone sub-command per tone in order; on an unanswered call it writes nothing and raises InvalidStateException.", "quantifier": "every tone string", "why_tests_cant": "all lengths", "anchors": [{"file": "gsmmodem/modem.py", "symbols": ["Call.sendDtmfTone"]}]}
{"id": "C50", "title": "Call status polling", "statement": "Polling reports call initiated only when the modem shows an outgoing call dialing/alerting, then answered only once it is active, and ended/rejected only after it has disappeared; each is reported at most once and in that order.", "quantifier": "every sequence of AT+CLCC replies", "why_tests_cant": "unbounded polling histories", "anchors": [{"file": "gsmmodem/modem.py", "symbols": ["GsmModem._pollCallStatus"]}]}
{"id": "C51", "title": "Text-mode time", "statement": "parseTextModeTimeStr returns the date, time and an offset equal to the quarter-hour field truncated to whole hours; so it is exact iff the field is a multiple of 4. It accepts exactly the texts of real dates and times followed by a number of three characters, and refuses others with ValueError.", "quantifier": "every timestamp, and every other text", "why_tests_cant": "all dates and offsets", "anchors": [{"file": "gsmmodem/util.py", "symbols": ["parseTextModeTimeStr", "SimpleOffsetTzInfo", "SimpleOffsetTzInfo.__init__", "SimpleOffsetTzInfo.utcoffset"]}]}
{"id": "C52", "title": "Line search helpers", "statement": "lineStartingWith/lineMatching return the first matching line (None iff none matches); allLinesMatchingPattern returns all matches in order.", "quantifier": "every list of lines and every predicate", "why_tests_cant": "all lists", "anchors": [{"file": "gsmmodem/util.py", "symbols": ["lineStartingWith", "lineMatching", "lineMatchingPattern", "allLinesMatchingPattern"]}]}
{"id": "C53", "title": "Trie lookups after store", "statement": "After t[k]=v, t[k] is v, and every other key is unaffected. (Violated when k is a proper prefix of exactly a compressed leaf key; proved with witness, and proved whenever no stored key properly extends k.)", "quantifier": "every trie built by any history, every key", "why_tests_cant": "all histories", "anchors": [{"file": "tools/gsmtermlib/trie.py", "symbols": ["Trie.__setitem__", "Trie.__getitem__", "Trie.get", "Trie.__init__"]}]}
{"id": "C54", "title": "Trie deletion", "statement": "del t[k] raises KeyError iff k is not stored, and otherwise removes exactly k.", "quantifier": "every trie built by any history", "why_tests_cant": "all histories", "anchors": [{"file": "tools/gsmtermlib/trie.py", "symbols": ["Trie.__delitem__", "Trie.__contains__"]}]}
{"id": "C55", "title": "Trie enumeration", "statement": "keys() lists each stored key exactly once, len() is their number, keys(p) lists exactly the stored keys starting with p. A loop over the trie gets the keys that were stored when it began, whatever its body does to the trie. (Violated at its end: from Python 3.7 on the loop ends with RuntimeError; proved.)", "quantifier": "every trie built by any history, every prefix, every loop body", "why_tests_cant": "all histories", "anchors": [{"file": "tools/gsmtermlib/trie.py", "symbols": ["Trie.keys", "Trie.__len__", "Trie._filteredKeys", "Trie._allKeys", "Trie.__iter__"]}]}
{"id": "C56", "title": "Trie longest common prefix", "statement": "longestCommonPrefix(p) is the longest string that starts every stored key starting with p. (Violated when a stored key is a proper prefix of p, and after deletions; witnesses and the valid cases are proved.)", "quantifier": "every trie built by any history, every prefix", "why_tests_cant": "all histories", "anchors": [{"file": "tools/gsmtermlib/trie.py", "symbols": ["Trie.longestCommonPrefix", "Trie._longestCommonPrefix"]}]}
{"id": "C57", "title": "Terminal line editing", "statement": "Whatever keys are pressed, the GSMTerm cursor stays within the input line, the history position within the history, the history never exceeds 100 entries, and editing behaves as the abstract before/after-cursor text.", "quantifier": "every key sequence", "why_tests_cant": "all sequences", "anchors": [{"file": "tools/gsmtermlib/terminal.py", "symbols": ["GsmTerm._inputLoop", "GsmTerm._handleBackspace", "GsmTerm._handleDelete", "GsmTerm._cursorLeft", "GsmTerm._cursorRight", "GsmTerm._cursorUp", "GsmTerm._cursorDown", "GsmTerm._doConfirmInput", "GsmTerm._addToHistory", "GsmTerm._handleHome", "GsmTerm._handleEnd"]}]}
{"id": "C58", "title": "GSM-7 output is standard GSM 03.38", "statement": "Whatever encodeGsm7 returns for a text without ESC is read by any receiver following the GSM 03.38 tables as that same text. (Violated for the grave accent, which is sent as the code of the section sign; witness proved, and the property proved for every text without it.)", "quantifier": "every accepted text", "why_tests_cant": "Conformance must hold for every character and every combination of them; round-trip tests cannot see a table error because encoder and decoder share the table.", "anchors": [{"file": "gsmmodem/pdu.py", "symbols": ["encodeGsm7", "GSM7_BASIC", "GSM7_EXTENDED"]}]}
{"id": "C59", "title": "Terminal command completion", "statement": "When TAB is pressed, a line that is the beginning of exactly one known command is replaced by that command, and a line that is the beginning of several is extended to the longest text they all start with; nothing is sent to the modem and the line is never shortened. (Violated for lines in small letters or with blanks, when a known command is a proper beginning of the line — with the built-in table for 'AT+CRE' — and for unknown text ending in '=', which ends the terminal; the exact conditions are proved, and that every command of the built-in table is found.)", "quantifier": "every line, every command table, and the built-in table of 151 entries", "why_tests_cant": "The result depends on the whole command table and on every prefix of every command; a test covers a few prefixes of a few commands.", "anchors": [{"file": "tools/gsmtermlib/terminal.py", "symbols": ["GsmTerm._doCommandCompletion", "GsmTerm.__printCommandSyntax", "GsmTerm._initAtCommandsTrie"]}, {"file": "tools/gsmtermlib/atcommands.py", "symbols": ["ATCOMMANDS"]}, {"file": "tools/gsmtermlib/trie.py", "symbols": ["Trie.longestCommonPrefix", "Trie.keys"]}]}
{"id": "C60", "title": "Terminal message entry", "statement": "After AT+CMGS the text the user edits reaches the modem exactly: Enter passes on the text before the cursor, Ctrl-Z the rest and the end mark, ESC the cancel mark, and nothing else is written. (Ends of lines are lost; an error response to AT+CMGS is taken for the prompt; the lines of a script after AT+CMGS are not sent: proved.)", "quantifier": "every sequence of editing keys, Enter, Ctrl-Z and ESC", "why_tests_cant": "The bytes sent depend on the whole editing history, including cursor movements across several Enter keys.", "anchors": [{"file": "tools/gsmtermlib/terminal.py", "symbols": ["GsmTerm._doConfirmInput", "GsmTerm._handleCtrlZ", "GsmTerm._handleEsc", "GsmTerm._inputLoop"]}]}
{"id": "C61", "title": "Terminal display", "statement": "While the terminal runs, the current row of the screen shows the prompt and the input line with the cursor at its place (or is empty while the line is empty), whatever keys are pressed and whatever the modem says. (Violated after ESC while a message is typed and when a line with blanks is completed by a shorter command; proved in all other cases.)", "quantifier": "every session of keys and notifications", "why_tests_cant": "Leftover characters appear only for particular sequences of edits, recalls and completions; all of them must be covered.", "anchors": [{"file": "tools/gsmtermlib/terminal.py", "symbols": ["GsmTerm._refreshInputPrompt", "GsmTerm._removeInputPrompt", "GsmTerm._inputLoop", "GsmTerm._handleModemNotification", "GsmTerm._cursorUp", "GsmTerm._handleBackspace", "GsmTerm._handleDelete", "GsmTerm.printStartMessage"]}]}
{"id": "C62", "title": "Initialisation sequence", "statement": "connect() succeeds iff the modem accepts the commands that are mandatory for it (and a PIN is given if one is needed). It then has written exactly the prescribed commands in the prescribed order, it has recognised the kind of the modem (Huawei, Wavecom, ZTE, unknown) from the list of commands, the manufacturer or a probe, and the settings for call notifications, DTMF, caller identification, message memories and SMS centre are those that belong to the answers.", "quantifier": "every modem whose answers do not depend on the history, every PIN, SMS mode and SMS centre number", "why_tests_cant": "There are dozens of independent branches (about ten optional commands, four kinds of modem, five formats of answers); a test runs one modem.", "anchors": [{"file": "gsmmodem/modem.py", "symbols": ["GsmModem.connect", "GsmModem._unlockSim", "GsmModem.manufacturer", "GsmModem.smsc"]}]}
{"id": "C63", "title": "List of supported commands", "statement": "supportedCommands returns exactly the commands the modem lists, in each of the formats in use (one line separated by commas, with or without +CLAC: before it, or one command in each line), and None if the modem does not support the query. (With a blank after '+CLAC:' the first command gets a blank before it: proved.)", "quantifier": "every list of commands and every format", "why_tests_cant": "The number of commands, their order and the blanks around them are arbitrary; tests use the lists of five phones.", "anchors": [{"file": "gsmmodem/modem.py", "symbols": ["GsmModem.supportedCommands"]}]}
{"id": "C64", "title": "The number of the SMS centre reflects the modem", "statement": "Once connect() has succeeded, a number that the library holds is the number which the modem has last accepted (AT+CSCA=) or told (AT+CSCA?), with no accepted command in between that can change or erase it (AT+CSCA=, AT+CSMP=). A number set before connecting survives connecting, even if the modem forgets it when the message parameters are set. An assignment that fails leaves the attribute alone. (Assigning None while connected sets the number 'None' in the modem: proved.)", "quantifier": "every modem (answers may depend on the whole history), every sequence of operations", "why_tests_cant": "The number is cached; staleness appears only after particular sequences of rejected, delayed or forgotten settings.", "anchors": [{"file": "gsmmodem/modem.py", "symbols": ["GsmModem.smsc", "GsmModem.connect"]}]}
{"id": "C65", "title": "Call progress notifications", "statement": "Every line by which a modem (Huawei, Wavecom, ZTE) reports the progress of a call is understood, and no other line is: a call set up is handed to the waiting dial, an answered call is marked as answered, a call that ended is marked and removed from the table, and nothing else changes; the status callback is called once for each change. Lines without a call number concern the first unanswered outgoing call. (An answer for a call that is not in the table raises KeyError, an end does not; call 0 is never ended; on Wavecom any lone OK counts as an answer: proved.)", "quantifier": "every line, every state of the calls, on each kind of modem", "why_tests_cant": "Tests use one call at a time with the ids of a fake modem; the effect depends on which calls are in the table and in what order.", "anchors": [{"file": "gsmmodem/modem.py", "symbols": ["GsmModem._handleCallInitiated", "GsmModem._handleCallAnswered", "GsmModem._handleCallEnded", "GsmModem._handleCallRejected", "GsmModem._handleModemNotification"]}]}
{"id": "C66", "title": "Dialling", "statement": "dial writes exactly ATD<number>; and returns a call object with that number and callback, registered in the table under the id (and with the type) that the first event telling of a new call gives while dial waits: a line of the modem or a polling thread that sees the call for the first time; on other modems the next free number and the voice type. If the command fails or the time is over, no call is created and nothing is awaited any more. (After a time-out the modem is not told to hang up; an end announced in the same batch as the start is lost: proved.)", "quantifier": "every modem, every state, every number and timeout, every sequence of notifications and polling rounds while waiting", "why_tests_cant": "The interleaving of notifications and polls with the wait is arbitrary; tests have one announcement after a fixed delay.", "anchors": [{"file": "gsmmodem/modem.py", "symbols": ["GsmModem.dial", "GsmModem._handleCallInitiated", "GsmModem._pollCallStatus"]}]}
{"id": "C67", "title": "Incoming calls", "statement": "A ring determines the type of the call (what follows the first space of the line; if it is expected but missing, exactly AT+CRC=1 is written, and the expectation is dropped if and only if the modem refuses it) and the caller (the number and its type in a well-formed +CLIP line, otherwise unknown). If the table has calls from this number, each of them has rung once more and the callback gets the last of them; otherwise the callback gets a new ringing call with these data, registered under the number of calls plus one. (An outgoing call to the same number makes it fail; two unknown callers are taken for one; calls other than VOICE raise KeyError: proved.)", "quantifier": "every modem, every state with a well-formed call table, every ring line and following lines", "why_tests_cant": "Tests ring once or twice with one number; the number of calls, their directions, the format of the lines and the answer to AT+CRC=1 are unbounded.", "anchors": [{"file": "gsmmodem/modem.py", "symbols": ["GsmModem._handleIncomingCall", "GsmModem.CLIP_REGEX", "IncomingCall.__init__"]}]}
{"id": "C68", "title": "Reading and deleting stored messages", "statement": "readStoredSms selects the memory if it is not the current one, writes exactly AT+CMGR=<index>, changes nothing else, and returns exactly what the answer means: in text mode a received message (state, sender, time and the lines between header and final OK joined by line feeds) or a status report (state, unread if missing, reference, recipient, both times, delivery status), in PDU mode what the PDU says with the state of the header (unread if missing); an answer that is neither, in particular an empty place, is a CommandError, an unknown state a KeyError. deleteStoredSms selects the memory if it is not the current one and writes exactly AT+CMGD=<index>,0; deleteMultipleStoredSms likewise AT+CMGD=1,<kind> for the kinds 1 to 4, and refuses any other kind before anything is written; nothing else changes.", "quantifier": "every modem and state, every index and memory, every answer of the modem, in both modes", "why_tests_cant": "Tests have a handful of recorded answers; headers, quoting variants and bodies are unbounded.", "anchors": [{"file": "gsmmodem/modem.py", "symbols": ["GsmModem.readStoredSms", "GsmModem._compileSmsRegexes", "Sms.TEXT_MODE_STATUS_MAP", "GsmModem.deleteStoredSms", "GsmModem.deleteMultipleStoredSms"]}]}
{"id": "C69", "title": "Passing on the stored messages", "statement": "processStoredSms lists the messages that have been read (unless only unread ones are wanted) and then the unread ones, deletes exactly the listed ones after each listing, and passes each listed message to the callback once, in the order of the listing, read ones first; when a listing or a deletion fails the error is raised and exactly the messages of the earlier states have been passed on. (A message that was deleted before a later deletion failed is lost.)", "quantifier": "every modem that lists messages in a readable form, every state, every sequence of messages, both modes, every failure", "why_tests_cant": "Tests list a few fixed messages and no deletion fails.", "anchors": [{"file": "gsmmodem/modem.py", "symbols": ["GsmModem.processStoredSms", "GsmModem.listStoredSms"]}]}
{"id": "C70", "title": "Questions about the modem and the network", "statement": "manufacturer, model, imei and imsi return the first line of the modem's positive answer to AT+CGMI, AT+CGMM, AT+CGSN and AT+CIMI; revision does so for AT+CGMR and returns None exactly when the modem refuses the command; signalStrength returns the number in the first line of the answer to AT+CSQ, -1 for 99, and raises CommandError for any other line; networkName returns the quoted name of the first line of the answer to AT+COPS? that has the format mode,format,\"name\"[,type], or None. Each writes exactly its command and changes nothing else; a failing command raises.", "quantifier": "every modem, every state, every answer", "why_tests_cant": "Tests use the recorded answers of a few modems; names with quotes, lines before the answer and refusals are unbounded.", "anchors": [{"file": "gsmmodem/modem.py", "symbols": ["GsmModem.signalStrength", "GsmModem.manufacturer", "GsmModem.model", "GsmModem.revision", "GsmModem.imei", "GsmModem.imsi", "GsmModem.networkName", "GsmModem.CSQ_REGEX"]}]}
{"id": "C71", "title": "Notifications about stored messages; waiting for a delivery report", "statement": "A +CMTI line of the format +CMTI: \"mem\",index makes the modem select the memory (unless selected), read and delete that place, and only then is the message passed to the callback; a failure at any step raises and passes nothing on; a line of another format does nothing. A +CDSI line does the same for a report: it is stored with the message that has its reference, and either wakes a waiting sendSms or, if none waits, goes to the callback; if the place holds an ordinary message, it is deleted and AttributeError raised. sendSms with waitForDeliveryReport returns exactly if, among the events after it begins to wait, some batch's first recognised line announces a report that is fetched; otherwise it raises TimeoutException; afterwards nothing is awaited.", "quantifier": "every line, every state, every modem, every sequence of notifications and polling rounds before and during the wait", "why_tests_cant": "Tests deliver one well-formed report at one moment; malformed lines, failing steps, other notifications and their order are unbounded.", "anchors": [{"file": "gsmmodem/modem.py", "symbols": ["GsmModem._handleSmsReceived", "GsmModem._handleSmsStatusReport", "GsmModem.sendSms", "GsmModem.CMTI_REGEX", "GsmModem.CDSI_REGEX"]}]}
{"id": "C72", "title": "USSD requests", "statement": "A batch of lines is taken for exactly this: one line must begin with +CUSD: status,\"message\",coding, where the message ends at the first quote followed by a comma and a digit (else AttributeError); several lines are joined and the results in the text are found from left to right, none raising IndexError, one giving its status and message, several giving the message of the last that is not a release. sendUssd writes its one command; if the answer has a +CUSD line among at least two lines, it returns what the answer means; otherwise it returns what the first batch after it that brings a result means, or raises TimeoutException; a batch that cannot be parsed, any other notification and polling do not end the wait; afterwards nothing is awaited.", "quantifier": "every text, every batch, every state, every modem, every sequence of events", "why_tests_cant": "Tests use a few well-formed results; arbitrary text, interleaved notifications and unparsable results are unbounded.", "anchors": [{"file": "gsmmodem/modem.py", "symbols": ["GsmModem.sendUssd", "GsmModem._handleUssd", "GsmModem._parseCusdResponse", "GsmModem.CUSD_REGEX"]}]}
{"id": "C73", "title": "The reader thread and write, interrupted anywhere", "statement": "With interruption allowed between any two accesses to the attributes shared by the reader thread and write: without time-outs and prompts, what has come of a run when both are at rest (results, notifications, lines, incomplete rest) is what could have come of handling each character and each write in one go, and returned results never change; conversely every run in one go is such a run. In every run each line handed up is in exactly one place. The reader survives if write removes its event and prompt only while the reader is not using them, in particular if nothing times out and the modem is quiet from the end of a response until write has tidied up. Otherwise it can die (witnesses without a time-out, after a prompt, after a time-out): then nothing is ever read again, alive stays true, the fatal error callback is not called, and every later write times out without data. After a time-out a line can be lost, raised data can grow, and the next write can return an empty response (witnesses).", "quantifier": "every schedule of the two threads and the modem, every text", "why_tests_cant": "The number of schedules is unbounded and a test cannot choose them; the fatal ones need a switch between two particular bytecodes.", "anchors": [{"file": "gsmmodem/serial_comms.py", "symbols": ["SerialComms._handleLineRead", "SerialComms._readLoop", "SerialComms.write"]}]}
{"id": "C74", "title": "What the keyboard gives the terminals", "statement": "The console hands over what is typed in pieces of one to four characters. The raw terminal sends every piece as it is, a lone line feed as carriage return, until the first lone CTRL+]; a text of which every character comes alone is sent as it should be, and so is any text without line feeds and CTRL+]; a line or CTRL+] inside a longer piece is not recognised (witness). The keys of GsmTerm are exactly those of the table, with distinct codes; exit keys end it and send nothing; before other output prompt and line are blanked. Of printable text it takes exactly the characters that come alone, so that nothing is lost exactly if all come alone; a command typed so and confirmed is sent; a cursor key whose code arrives in two pieces cancels the message being typed (witness).", "quantifier": "every text, every division into pieces, every state of the terminal", "why_tests_cant": "There are no tests of the terminals; texts and their divisions are unbounded.", "anchors": [{"file": "tools/gsmtermlib/terminal.py", "symbols": ["Console.getkey", "RawTerm._inputLoop", "GsmTerm._inputLoop", "GsmTerm._exit", "GsmTerm._removeInputPrompt", "GsmTerm._isPrintable"]}]}
{"id": "C75", "title": "The command line tools do what they report", "statement": "sendsms.py makes the modem take at most one message. Status 0 means that all parts of the typed message, encoded for the given destination with reference 0, were transmitted and accepted, that the modem took exactly one message, and that the last line says what the delivery reports with its reference say about it (without -d nothing); the port is closed. If a message was taken and the status is not 0, then -d was given and the user is told that sending timed out (witness). The port stays open exactly if the program ends with an uncaught exception or complains about the PIN. identify-modem.py never closes the port; with -d it asks the fourteen questions in order, each once, and shows each answer as it is up to the first question that is not answered; otherwise, for a modem that answers always alike, it asks exactly the given questions, those for revision, IMEI and IMSI twice, and shows first lines, network name and signal strength, N/A exactly for a refused revision.", "quantifier": "every modem, every argument and typed message, every sequence of notifications and polling rounds before, while typing and while waiting", "why_tests_cant": "There are no tests of the tools; modems, messages and interleavings with notifications are unbounded.", "anchors": [{"file": "tools/sendsms.py", "symbols": ["main"]}, {"file": "tools/identify-modem.py", "symbols": ["main"]}]}
{"id": "C76", "title": "What holds when message methods run in several threads", "statement": "The methods for messages (reading, deleting, listing, the handlers of notifications about messages and reports, sending, switching the mode) are split into atomic steps: exchanges with the modem, and looking at or assigning attributes. Without other threads the steps are the method, and running the methods one after the other is one of the schedules. For every schedule and all other methods: a thread that has handled a message has asked for it, got it, deleted what is at the place then, and called the callback with it; a report is taken the same way and recorded; a thread that has sent a message has written all its commands in order, each accepted, and recorded the reference of the answer to its own last command; the states of sent messages are those of the specification; with references of one octet the counter stays within 0..256, and it is at most 255 when all threads have finished; if all methods are about the selected memory, no thread selects a memory. Schedules exist in which a message is deleted that nobody has read, the remembered memory differs from the selected one, a command comes between prompt and message, two messages get the same reference, a send fails because of reference 256, a delivery report is lost, or a message is taken apart in the wrong mode.", "quantifier": "every modem, every list of methods in threads, every schedule of their atomic steps, every initial state (fresh for the states of messages)", "why_tests_cant": "Tests run in one order of the threads; the number of schedules grows exponentially with the number of steps.", "anchors": [{"file": "gsmmodem/modem.py", "symbols": ["_setSmsMemory", "readStoredSms", "deleteStoredSms", "deleteMultipleStoredSms", "listStoredSms", "_handleSmsReceived", "_handleSmsStatusReport", "sendSms", "smsTextMode", "_handleModemNotification"]}, {"file": "gsmmodem/serial_comms.py", "symbols": ["write"]}]}
{"id": "C77", "title": "What holds when calls and messages are handled in several threads", "statement": "The handlers of notifications (rings, progress and end of calls, USSD, messages), the polling of call states, dialling, answering, hanging up and DTMF tones are split into atomic steps. Without other threads the steps are the method, and running the tasks one after the other is one of the schedules. For every schedule and all other tasks: no call object is lost or changes its identity, a call that is over never becomes active again, one that has stopped ringing never rings again, one that was removed from the table never returns to it; when all threads have finished, no call in the table is over; after hangup (even with a KeyError) the call is over and not in the table; after the end of a call was handled (even with a KeyError) no known call with this id is in the table; after a ring was handled the callback has got an incoming call of this caller; after dial the command was written and there is a new call; after answer the call does not ring; messages are handled as without calls. If the other tasks end no calls, hangup of an active call has written ATH, and when it fails the call is as before; if they also start none, the table loses exactly this call. Schedules exist in which one ringing call becomes two objects, two calls have the same id, hangup or the end of a call fails with a KeyError, a ring is lost with a RuntimeError, ATH is written twice, a call is marked as answered after its end, or the end of a call removes another active call from the table.", "quantifier": "every modem, every list of tasks in threads, every schedule of their atomic steps, every initial state (with a consistent table where the table is concerned)", "why_tests_cant": "Tests run in one order of the threads; the number of schedules grows exponentially with the number of steps.", "anchors": [{"file": "gsmmodem/modem.py", "symbols": ["_handleModemNotification", "__threadedHandleModemNotification", "_handleIncomingCall", "_handleCallInitiated", "_handleCallAnswered", "_handleCallEnded", "_handleCallRejected", "_pollCallStatus", "dial", "hangup", "answer", "sendDtmfTone", "_handleUssd"]}]}
{"id": "C78", "title": "What threads that wait for a notification end with", "statement": "sendUssd, dial (on modems that report the beginning of a call) and sendSms with waitForDeliveryReport create a threading.Event, assign it to an attribute of the modem object and wait; the threads that handle notifications set the event that the attribute has at that moment. Each created event is modelled separately, and everything is split into atomic steps. Without other threads the steps are the method with nothing happening during the wait. For every schedule, if no other thread waits for the same kind of event: a USSD request ends with a result that a notification handled by another thread brings, with what the answer to the command says, with an error of the command, or with TimeoutException, never with a missing result; dial ends with a call object whose id and type another thread was told (by a notification or by polling), with the number that was dialled, or with an error of the command or a TimeoutException; sendSms returns only after the message was accepted and a report was handled; afterwards the attribute is None again. For all schedules, also with several waiting threads: a handler that starts while an event is assigned, and finishes while it is still assigned, has set it; a thread whose event is set when it begins to wait does not time out. Schedules exist in which two waiting threads disturb each other (a timed-out request takes away the event of another, which fails with AttributeError although its result is there; both get the same result; two call objects for one call), the result of a request that timed out is taken for that of the next, the handler fails with AttributeError because the wait ends between test and set, a report handled between sending and the creation of the event makes sendSms time out, a report for another message makes it return, and a call that begins after dial timed out is unknown to the program.", "quantifier": "every modem, every list of jobs in threads, every schedule of their atomic steps, every initial state", "why_tests_cant": "Tests use one thread to wait and one fixed moment for the notification; the moments that matter are between two statements, and the number of schedules grows exponentially.", "anchors": [{"file": "gsmmodem/modem.py", "symbols": ["sendSms", "sendUssd", "dial", "_handleUssd", "_handleSmsStatusReport", "_handleCallInitiated", "_pollCallStatus", "__threadedHandleModemNotification"]}]}
{"id": "C79", "title": "A message sent by one program arrives at another with its text", "statement": "In PDU mode, when sendSms succeeds the sender's modem has taken over the PDUs of the message in order, each once however often it was busy (and a first few of them when sendSms fails). Whatever service centre relays them (an SMS-DELIVER with the same protocol, coding, header indicator and user data as the SMS-SUBMIT, with any address of the centre, any sender and any time) and whatever modem stores the result and announces it, _handleSmsReceived of the receiving program calls the callback with a message with this sender, time and centre and with the text: for up to 160 characters of the GSM alphabet the text sent, except for a final '@' when the number of septets is a multiple of 8; for up to 70 other characters of the basic multilingual plane exactly the text; for longer texts one message per part with slices of 153 or 67 characters, whose texts joined in order are the text or its beginning. The service centre can read the PDUs in exactly one way, and finds the destination number in them.", "quantifier": "every text and destination number, every behaviour of both modems, every service centre, sender, time and state of both programs", "why_tests_cant": "Tests check the encoder and the decoder against fixed PDUs; that any message survives encoding, transmission with busy answers, relaying and decoding is a statement about the composition for all texts.", "anchors": [{"file": "gsmmodem/modem.py", "symbols": ["sendSms", "_handleSmsReceived", "readStoredSms", "deleteStoredSms", "write"]}, {"file": "gsmmodem/pdu.py", "symbols": ["encodeSmsSubmitPdu", "decodeSmsPdu"]}]}
{"id": "C80", "title": "The library from the characters on the serial line to the results of its methods", "statement": "SerialComms (reader loop, framing, lock of write, waiting with a timeout) and the threads that run methods of the modem object are one machine: characters arrive one by one at any moment, the connection may break, a thread that writes a command waits until its answer is read or the time is over, meanwhile other threads go on until they write themselves, and each batch of lines outside an answer starts a thread. Whatever happens, the threads have done what they do, in some order, with a modem that answers each command at once with lines that can be read (up to a final result code, or up to the prompt when a message was announced; or a time-out, with the lines read so far), and each command was answered with what was read for it; conversely every such order and every such modem occur for some characters. So what was proved for atomic commands holds for characters: how a USSD request, dial and sendSms with a delivery report end, and that call objects keep their identity. The characters that arrived are the lines read and an incomplete rest; each line is in the outcome of one command or in one batch. There is no deadlock: from every state all threads come to an end if only the waits end. The answer to a command whose time was over can be taken for that of the next.", "quantifier": "every list of jobs in threads, every initial state, every sequence of characters, breaks, time-outs and steps of threads", "why_tests_cant": "Tests replace the serial port by a mock that answers at once, in one thread; answers split between commands and notifications between threads at any character are not enumerable.", "anchors": [{"file": "gsmmodem/serial_comms.py", "symbols": ["_handleLineRead", "_readLoop", "write"]}, {"file": "gsmmodem/modem.py", "symbols": ["write", "sendSms", "sendUssd", "dial", "_handleModemNotification", "__threadedHandleModemNotification"]}]}
{"id": "C81", "title": "Connections of SerialComms from connect to close", "statement": "SerialComms is connected, used, closed (or broken by an error of the port) and connected again any number of times, while its read threads run; the thread of the program and the read threads interleave in every way. If connect is called only when no read thread is active (at first, after close, after a fatal error): at any moment only the newest read thread is active, and the port is then open; when close returns the port is closed, and until the next connect no line is handled and no callback is called; close always can return; each read thread calls the fatal error callback at most once, only because a read failed and never because of close, and a thread does not stop in silence: without close it is active or has called the callback; the lines handled are those of the first connection, then those of the second and so on, each the division of the characters read in this connection alone. As long as write is called only when the port is open, each line is in one answer or one notification. Not so otherwise: a write that fails because the port is closed leaves its response event behind, so that a notification of the next connection is taken for its response and lost; with two connects in a row two read threads share the characters, and after close one is left which reports a fatal error; lines of an unfinished notification are delivered with one of the next connection; close raises AttributeError before connect and RuntimeError within the fatal error callback.", "quantifier": "every sequence of connect, close, write, characters, time-outs and errors of the port, in every order of the threads", "why_tests_cant": "Tests connect once to a mock and close it; reconnecting after an error at every point of the read loop and races between close and the read thread are not enumerable.", "anchors": [{"file": "gsmmodem/serial_comms.py", "symbols": ["connect", "close", "_readLoop", "_handleLineRead", "write", "__init__"]}]}
{"id": "C82", "title": "The example programs", "statement": "sms_handler_demo.py (PDU mode): when a message that arrives with some text from a telephone number is handled without an exception, the modem takes over exactly one PDU more; it is addressed to this number, and arrives at its receiver with the text SMS received: \"<first 20 characters>\", with ... if there are more - provided that these 20 characters have no escape character and no ÿ. With an ÿ after characters of the GSM alphabet the callback fails with TypeError and nothing is written. Two such programs that answer each other do so forever: after k handled answers a message with the k-fold answer is there, which from the third on is the same text. incoming_call_demo.py: at the first ring nothing is done; without DTMF support the call is hung up at the next; otherwise it is answered, and when this is refused nothing else is written; after the waiting time the tones are sent and then ATH, whatever has become of the tones, after which the call is over; if the caller has hung up while it waited, InvalidStateException escapes from the callback.", "quantifier": "every text, number, modem, service centre, number of rounds, and events while the program waits", "why_tests_cant": "The programs have no tests; the way of an answer depends on two programs, two modems and a service centre for every text and any number of rounds.", "anchors": [{"file": "examples/sms_handler_demo.py", "symbols": ["handleSms"]}, {"file": "examples/incoming_call_demo.py", "symbols": ["handleIncomingCall"]}, {"file": "gsmmodem/modem.py", "symbols": ["reply", "sendSms", "answer", "hangup", "sendDtmfTone", "_handleSmsReceived"]}]}
{"id": "C83", "title": "The example programs that make calls, and the one for USSD", "statement": "dial_polling_demo.py, as one of several threads whose steps are interleaved in any way: it writes nothing but first the tones and then ATH, each at most once unless the modem answers that it is busy; when its loop ends without an exception the call is not active; if no other thread ends calls, the modem was told to end it and accepted this. A call that is neither answered nor ended is waited for forever. If the other end hangs up between the check of active and that of answered, InvalidStateException escapes; if it does so while the program hangs up, KeyError. dial_callback_demo.py: a call that ends while the callback sleeps has nothing written to it; otherwise the tones are written and then ATH, and the program goes on waiting exactly if ATH is not accepted; if it is, the program prints that the remote party has ended the call. ussd_demo.py: when it ends without an exception, there was a result, and AT+CUSD=2 was written and accepted if the session was open, and nothing more was written if not.", "quantifier": "every modem, every number and kind of other threads, every schedule, number of rounds, and events while a program waits", "why_tests_cant": "The programs have no tests; the exceptions depend on the moment at which another thread takes a step.", "anchors": [{"file": "examples/dial_polling_demo.py", "symbols": ["main"]}, {"file": "examples/dial_callback_demo.py", "symbols": ["callStatusCallback", "main"]}, {"file": "examples/ussd_demo.py", "symbols": ["main"]}, {"file": "gsmmodem/modem.py", "symbols": ["hangup", "sendDtmfTone", "answered", "cancel"]}]}
{"id": "C84", "title": "The exception classes", "statement": "CmeError(command, code) and CmsError(command, code) give an object of the class that the standard's meaning of the code calls for (PIN required, PUK required, wrong PIN, SMSC unknown, otherwise the class itself), with the command, the kind and the code as attributes and both in its text. A class derived from CmeError gives an object of itself, or of the class of the code if the code has one. An except clause for a class catches exactly the classes derived from it, and so do the handlers in the model. Copying an object that write raised gives the same object if its code has a class of its own and fails with TypeError if not. (Violated: with the code as a keyword argument no class is chosen; asking for one class can give an object of another one; a copy can have a different text.)", "quantifier": "all classes, commands and codes", "why_tests_cant": "All codes and commands; __new__ returning objects of other classes is resolved at run time.", "anchors": [{"file": "gsmmodem/exceptions.py", "symbols": ["GsmModemException", "TimeoutException", "InvalidStateException", "InterruptedException", "CommandError", "CmeError", "SecurityException", "PinRequiredError", "IncorrectPinError", "PukRequiredError", "CmsError", "SmscNumberUnknownError", "EncodingError", "CmeError.__new__", "CmsError.__new__", "CommandError.__init__", "TimeoutException.__init__", "InterruptedException.__init__"]}]}
{"id": "C85", "title": "Exactly which messages can be sent", "statement": "encodeSmsSubmitPdu (without a validity period) gives PDUs if and only if the reference is 0 to 255, the number and the service centre (if any) fit an address field, and the text can be carried. An address fits if it is a string of digits that have a decimal value, possibly after a +, of at most 255 digits (508 for a service centre), or otherwise a non-empty name in the GSM alphabet of at most 145 septets. A text can be carried if it is not empty and, all of it being in the GSM alphabet, has at most 160 characters and 255 septets, or more than 160 and less than 40800 characters with at most 248 septets in each piece of 153; or if its first character outside the alphabet is not ÿ, it has less than 17850 characters and those that are transmitted are below U+10000. Every other call raises ValueError, TypeError, StopIteration or IndexError; TypeError whenever the first character outside the alphabet is ÿ. In PDU mode sendSms refuses exactly these messages before it writes anything, and nothing changes. (Violated: texts of 128 to 160 extension characters are refused, although they could be split.)", "quantifier": "all numbers, texts, references, service centres and flags, over any Unicode database", "why_tests_cant": "Both directions, for all texts and numbers, with bounds on septets rather than characters.", "anchors": [{"file": "gsmmodem/pdu.py", "symbols": ["encodeSmsSubmitPdu", "_encodeAddressField", "encodeSemiOctets", "encodeGsm7", "encodeUcs2", "packSeptets"]}, {"file": "gsmmodem/modem.py", "symbols": ["GsmModem.sendSms"]}]}
{"id": "C86", "title": "The exceptions of every public method", "statement": "For each operation of a connected modem there is an exact list of the exceptions it can raise, whatever the modem answers (no response being empty), in any state: each method raises only what is listed for it, and each exception listed is raised for some modem that ends every response with a final result code. A command can time out, be refused (CommandError without code, or the class for a CME or CMS code other than 14 and 515), or run out of stack because the modem stays busy; revision and supportedCommands swallow refusals, smsc swallows code 330 only. Beyond that, general Python exceptions escape exactly from: reading (KeyError, StopIteration, TypeError, ValueError, IndexError), listing and processing stored messages (the same, though never EncodingError), sending (ValueError, and what the encoder raises), USSD (IndexError), deleteMultipleStoredSms with a flag outside 1 to 4, and sendDtmfTone with a brace after the first tone (ValueError). connect can raise TypeError, ValueError, AttributeError and IndexError besides. A handled notification or poll never raises into the caller. dial never raises TypeError.", "quantifier": "all operations with all arguments, all states, all modems that do not give empty responses", "why_tests_cant": "A bound on the exceptions for all answers of the modem, together with a modem for each of them.", "anchors": [{"file": "gsmmodem/modem.py", "symbols": ["GsmModem.connect", "GsmModem.write", "GsmModem.signalStrength", "GsmModem.revision", "GsmModem.supportedCommands", "GsmModem.smsc", "GsmModem.waitForNetworkCoverage", "GsmModem.sendSms", "GsmModem.sendUssd", "GsmModem.dial", "GsmModem.processStoredSms", "GsmModem.listStoredSms", "GsmModem.readStoredSms", "GsmModem.deleteStoredSms", "GsmModem.deleteMultipleStoredSms", "Call.sendDtmfTone", "Call.hangup", "IncomingCall.answer", "Ussd.reply", "Ussd.cancel"]}]}
{"id": "C87", "title": "The pages of the terminal", "statement": "The help page of a command and the line of TAB show the same characters with colours as without, and leave the colour of the screen as it was; all lines of the meaning of a value begin in the same column behind the value; a page begins with the name and category of the stored entry. Help is found exactly for the commands of the table, whatever their case and the blanks around; 'help X', 'X??', 'X=??' and '?X' give the same page. ls lists every stored command exactly once with its name, ls with a category exactly those of the category, and each command of the built-in table belongs to exactly one category. The syntax that TAB prints is that on the help page. A page is printed exactly for the inputs that count as requests for one, and ends with a line feed. (Violated: the first of two rows for AT+WOPN is never shown; '?' with one character is sent to the modem; the names of AT+FCLASS and AT+FPHCTO are out of the column; all proved.)", "quantifier": "all inputs, all command tables (and the built-in one), with and without colours", "why_tests_cant": "Texts and tables of any length; the built-in table is covered completely.", "anchors": [{"file": "tools/gsmtermlib/terminal.py", "symbols": ["GsmTerm._color", "GsmTerm._printCommandHelp", "GsmTerm._printGeneralHelp", "GsmTerm._doConfirmInput", "GsmTerm._initAtCommandsTrie"]}, {"file": "tools/gsmtermlib/atcommands.py", "symbols": ["ATCOMMANDS", "CATEGORIES"]}]}
{"id": "C88", "title": "PDUs that are cut off or go on after their end", "statement": "If a PDU and a continuation of it both decode, they agree in type, service centre, number, identifiers, times and header, and the text of the shorter is the beginning of the text of the longer; the same for hexadecimal strings. A well-formed SMS-DELIVER or status report that lost any part of its fields or of its user data header never decodes; one that lost a part of its text gives its own fields and a beginning of its own text, or fails. A string that ends in the middle of an octet is refused with EncodingError. Octets after the end do not change a status report, a UCS2 text or a GSM-7 text of at most seven septets, and a message that decodes is only made undecodable by them with StopIteration or TypeError. (Violated: the missing part of a text goes unnoticed; 8-bit data and longer GSM-7 texts take in octets after their declared end; proved.)", "quantifier": "all octet strings and strings, all places of the cut, all continuations", "why_tests_cant": "Every PDU, every cut and every continuation is covered, also of PDUs that are not well-formed.", "anchors": [{"file": "gsmmodem/pdu.py", "symbols": ["decodeSmsPdu", "_decodeUserData", "_decodeAddressField", "_decodeTimestamp", "decodeSemiOctets", "unpackSeptets", "decodeUcs2", "decodeGsm7"]}]}
{"id": "C89", "title": "Callbacks that raise exceptions or use the modem", "statement": "The callbacks of the user may be any code. Handling a notification runs it at most once and passes its exceptions on. A message or report has been read and deleted, and a report entered at its message, before the code gets it, and nothing is done afterwards. After a call has ended the code runs first: if it raises an exception nothing else happens, if it removed the entry of the call that is a KeyError, otherwise the call is ended. Whatever callbacks do with the modem, however deeply nested, the table of calls stays consistent, and when `hangup` returns the call is over. A callback that hangs up the call only when it was answered is called twice and writes ATH once. (Violated: stored messages are lost when a callback raises an exception; a call whose callback raises one stays active and in the table, also after ATH was accepted; a callback that hangs up its active call is called by its own hangup up to the recursion limit; a polling thread ends with the exception of a callback and never notices the end of the call; proved.)", "quantifier": "all callbacks given as programs over the operations of the modem, all depths of nesting, all modems, all states", "why_tests_cant": "User code is arbitrary; tests try a handful of callbacks. The theorems quantify over every program that the user can write with the methods of the modem.", "anchors": [{"file": "gsmmodem/modem.py", "symbols": ["processStoredSms", "__threadedHandleModemNotification", "_handleIncomingCall", "_handleCallAnswered", "_handleCallEnded", "_handleSmsReceived", "_handleSmsStatusReport", "_pollCallStatus", "answered", "hangup", "answer"]}, {"file": "examples/dial_callback_demo.py", "symbols": ["callStatusCallback"]}]}
{"id": "C90", "title": "Several modems, side by side and one after another", "statement": "A program may use any number of modem objects, and connect an object again, to the same or to another modem. Side by side, each modem that sends no tones behaves as if it were alone, whatever is done with the others: same outcomes, same commands, same state; with tones this holds if no Huawei modem is connected, or one was already. The attributes of the class Call tell exactly whether any modem connected so far can send tones, or is from Huawei, so the tones of every call go out by the command of Huawei modems iff some modem is one. One after another, the settings that connect leaves in a used object are those of a new object exactly when nothing is left in it; for an object connected to one modem, closed and connected to a second one this is an exact condition on the two modems. (Violated: a modem gets ^DTMF because another one is from Huawei; the SMS centre number of the first SIM card is written to the second modem; after a ZTE modem the calls of a modem that has to be polled are never polled; a call left from an earlier connection is taken for a new call of the same number; proved.)", "quantifier": "all numbers of modems, all histories of connections, closings and operations on them, all environments; all pairs of modem behaviours", "why_tests_cant": "The tests use one modem object at a time, freshly made, with one fake modem; interference needs histories over several objects or connections, of which there are unboundedly many.", "anchors": [{"file": "gsmmodem/modem.py", "symbols": ["GsmModem.connect", "Call", "sendDtmfTone", "dial", "_handleIncomingCall"]}, {"file": "gsmmodem/serial_comms.py", "symbols": ["close"]}]}
{"id": "C91", "title": "The modem takes the characters for the commands that were meant", "statement": "The modem gets characters, not commands: it takes them for a command up to a carriage return, and, after it has asked for a message, for the message up to Ctrl-Z or escape. Along every history of connections and uses of a modem, in which the arguments that are put into commands and the lines that come from the modem have no carriage return inside, the texts sent in text mode have no Ctrl-Z or escape, and the modem never answers a message itself with busy, the modem takes exactly the commands and messages that were written, in this order, and is ready for a command afterwards. In PDU mode the number and the text of a message may be anything. These conditions are exact: a command is taken as one exactly if it has no carriage return inside; a text mode message exactly if its text has no Ctrl-Z or escape. (Violated otherwise: the rest of a text after Ctrl-Z is executed as a command; a number to dial with a carriage return gives two commands; a message answered with busy is written again without being announced, and becomes the beginning of the next command; proved.)", "quantifier": "all histories of connect, close and operations with all arguments and events, all environments with memory, all texts and numbers", "why_tests_cant": "The tests compare each written string with the expected one and feed the fake modem by whole writes, so they never see how a modem splits the characters; hostile arguments and busy answers to the message itself are not tried, and histories are unbounded.", "anchors": [{"file": "gsmmodem/modem.py", "symbols": ["write", "sendSms", "dial", "sendUssd", "smsc", "_setSmsMemory", "_unlockSim", "readStoredSms", "deleteStoredSms", "sendDtmfTone", "connect"]}, {"file": "gsmmodem/serial_comms.py", "symbols": ["write"]}]}
{"id": "C92", "title": "Stored messages are neither lost nor handed over twice", "statement": "With a modem that keeps messages as 27.005 says (memories with numbered places, states unread/read/unsent/sent, AT+CPMS, AT+CMGL, AT+CMGR and AT+CMGD obeyed, PDU mode), in which further messages arrive between any two commands at any free place: along every history of operations that does not itself delete messages or change to text mode, whatever is notified and whenever, the messages handed over to the program are exactly those that have left the modem, each once and with its own content, and every other message that was there or has come is still there. processStoredSms always succeeds and hands over every unread message of the selected memory (and every read one unless only unread ones are wanted). The handler of +CMTI hands over the message at the place named, and takes off that message and no other. (Violated otherwise: listing all messages with deletion loses a message that arrives between the two commands; a message whose PDU cannot be read is deleted in place of the following one, which is then handed over again the next time; a +CDSI notification for a place where a message is deletes the message without handing it over; proved.) Connecting itself, whether it succeeds or fails, takes no message away and hands none over, although it resets the modem and selects memories, and the same holds of a whole session that begins with it.", "quantifier": "all modems that keep messages, all contents of their memories, all arrivals between any two commands, all histories of operations and notifications", "why_tests_cant": "The fake modems of the tests answer fixed scripts and keep no messages, so nothing relates what is deleted to what has been handed over; arrivals between two commands of one method cannot happen there, and histories are unbounded.", "anchors": [{"file": "gsmmodem/modem.py", "symbols": ["processStoredSms", "listStoredSms", "readStoredSms", "deleteStoredSms", "_handleSmsReceived", "_handleSmsStatusReport", "_setSmsMemory", "connect"]}]}
{"id": "C93", "title": "SMS-SUBMIT decoding", "statement": "A well-formed SMS-SUBMIT PDU made by any program (any SMSC, recipient, reference, PID, alphabet, without or with a user data header; no validity period, a relative or an absolute one) decodes to exactly its fields. (Violated for the enhanced validity period: its seven octets are taken for the length of the user data and for user data; proved for all such PDUs.)", "quantifier": "all field values", "why_tests_cant": "The tests decode a handful of SUBMIT PDUs, almost all made by the library itself; none has the enhanced format, and the product of the fields is unbounded.", "anchors": [{"file": "gsmmodem/pdu.py", "symbols": ["decodeSmsPdu", "_decodeRelativeValidityPeriod", "_decodeTimestamp", "_decodeUserData", "_decodeAddressField"]}]}
{"id": "C94", "title": "Parts of different long messages are not mixed up", "statement": "Long messages sent one after the other in PDU mode can be told apart by a receiver: with a modem that numbers the messages it takes over (mod 256), the concatenation references of all messages among 256 parts are different once one message has been sent, so that from the parts in any order the receiver gets every long message back, with its own parts, in their order and with its text. (Violated for the first long message of a modem object, whose reference is 0 whatever the number of the modem, and after a message that failed with some of its parts already sent: the next message then has the same reference.)", "quantifier": "all texts, destinations and histories of sending; all modems that number messages, with any answers otherwise; all orders of arrival", "why_tests_cant": "The tests send single messages to a mock modem and compare the PDUs; whether two messages can be confused depends on the whole history of sending and on the order of arrival.", "anchors": [{"file": "gsmmodem/modem.py", "symbols": ["GsmModem.sendSms", "GsmModem.__init__"]}, {"file": "gsmmodem/pdu.py", "symbols": ["encodeSmsSubmitPdu", "Concatenation"]}]}
{"id": "C95", "title": "Forgetting a sent message changes nothing else", "statement": "The table of sent messages holds its messages weakly, so an entry vanishes when the program drops the message. Whenever this happens between uses of the modem, all outcomes, commands, callbacks and attributes are those without it, every other message keeps the status that belongs to it (also one with the same reference), and reports for forgotten messages are still told. (Violated if the message vanishes between the test and the use of its entry in _handleSmsStatusReport: the handler ends with a KeyError after the report was deleted from the modem, and neither a waiting sendSms nor the callback is told.)", "quantifier": "all histories of uses of a modem (including connect and close), all modems, all moments at which messages vanish", "why_tests_cant": "The tests keep the message they sent; when an object vanishes is decided by the garbage collector, at any moment and in any thread.", "anchors": [{"file": "gsmmodem/modem.py", "symbols": ["GsmModem.__init__", "GsmModem.sendSms", "GsmModem._handleSmsStatusReport"]}]}
{"id": "C96", "title": "What one program sends in a session, another program is handed, each text once", "statement": "If one program sends messages to telephone numbers (short ones, or long ones that fit into their parts; without '@', escape and, in long ones, extension characters), and a service centre conveys each PDU that its modem takes over, in any order and at any time, to the modem of another program that uses the library without deleting messages itself, then what that program is handed together with what is still on its modem is exactly the texts that were sent, with the number of the sender, and what else was there, each once; the texts of the parts of a long message join to its text. (But the object of a received message has no trace of the header of a part, so the program cannot tell in which order the parts belong.)", "quantifier": "all sequences of messages, all sending and receiving modems, all service centres, orders and moments of arrival, all histories of the receiving program", "why_tests_cant": "No test connects a sender to a receiver; the tests compare PDUs with constants and feed constants to the receiver.", "anchors": [{"file": "gsmmodem/modem.py", "symbols": ["GsmModem.sendSms", "GsmModem._handleSmsReceived", "GsmModem.processStoredSms", "GsmModem.readStoredSms", "GsmModem.listStoredSms", "ReceivedSms"]}, {"file": "gsmmodem/pdu.py", "symbols": ["encodeSmsSubmitPdu", "decodeSmsPdu"]}]}
{"id": "C97", "title": "The characters that arrive count, not the type in which the port gives them", "statement": "SerialComms reads what arrives whatever the port returns for it. With a port that returns str (pyserial on Python 2) it behaves as the specification of C27 to C31 says and raises nothing. (Violated with a port that returns bytes, as pyserial does on Python 3, which the package claims to support: whatever arrives, no line is ever recognised, no response returned and no notification told; every write raises TypeError; and every value read, even the empty one of a timeout, stays in the buffer.)", "quantifier": "all sequences of reads, timeouts, writes and failures, at ports for text and at ports for bytes", "why_tests_cant": "The tests replace the port by a mock that returns str on every version of Python.", "anchors": [{"file": "gsmmodem/serial_comms.py", "symbols": ["SerialComms._readLoop", "SerialComms.write", "SerialComms._handleLineRead"]}]}
{"id": "C98", "title": "The terminal program from start to end", "statement": "While the terminal program runs, the console gives single characters without line editing, echo and signals and keeps its other settings. The program goes on as long as there is no reason to end. After a key that means the end (CTRL+], in GsmTerm also CTRL+D), or an exception, no key is handled and the program ends as soon as the read thread comes back from the port; it also ends when the port fails, at whatever moment, and then at most one more key is taken. The port is never closed under the read thread. When it has ended the console has its settings back. (Violated on Python 3, where nothing calls sys.exitfunc: the console stays without echo and line editing. There no key means the end either: the first key of any kind makes the raw terminal crash, the first printable character GsmTerm.)", "quantifier": "all interleavings of main, input and read thread, all keys and failures, all settings of the console, both terminals on Python 2 and 3", "why_tests_cant": "There are no tests of the console or of the program; threads interleave differently in each run.", "anchors": [{"file": "tools/gsmterm.py", "symbols": ["main"]}, {"file": "tools/gsmtermlib/terminal.py", "symbols": ["Console.setup", "Console.cleanup", "Console.getkey", "cleanup_console", "RawTerm.start", "RawTerm.stop", "RawTerm._inputLoop", "GsmTerm._inputLoop", "GsmTerm._exit"]}]}
{"id": "C99", "title": "What strangers write in a message is text and nothing else", "statement": "Whatever stored messages contain: when they are read or listed, all that the modem sends is taken for the answer to that command, as a whole, and nothing of it for a notification or for anything else the modem has said. In PDU mode this holds for all messages. (Violated in text mode. There it holds exactly if no line of a text begins like a final result code. Otherwise the answer ends at that line, and what follows it is handled as notifications: for any lines there is a text that makes the program take them for words of the modem. One message is enough to make a program that only waits for messages fetch and delete another stored message. In text mode a text comes back as it was sent exactly if there is no CR LF in it.)", "quantifier": "all texts and octets of any number of stored messages, all histories of the serial line before, all timings of the characters", "why_tests_cant": "The tests use friendly texts of one or two lines in the answers of a mock modem, and hand lines over with a fixed timing.", "anchors": [{"file": "gsmmodem/serial_comms.py", "symbols": ["SerialComms._readLoop", "SerialComms._handleLineRead", "SerialComms.write", "RESPONSE_TERM"]}, {"file": "gsmmodem/modem.py", "symbols": ["GsmModem.readStoredSms", "GsmModem.listStoredSms", "GsmModem._handleSmsReceived", "GsmModem._handleModemNotification"]}]}
{"id": "C100", "title": "One stored message that cannot be understood does not hinder the others", "statement": "Whatever is stored on the modem: if the stored messages are processed, every message that can be understood is handed over, whatever other messages lie beside it. (Violated. A stored PDU is a message, is refused with EncodingError, or makes the decoder stumble; every received message without text in the GSM alphabet does the last. A listing raises an exception exactly if one of its messages makes the decoder stumble, and then nothing is handed over and nothing deleted. So with one such message that has been read, processing the stored messages hands over nothing, however often it is done. If it is unread, the unread messages beside it are marked as read by the modem and processing unread messages does not find them any more. A message that is refused with EncodingError leaves its place and its state to the next message of the listing.)", "quantifier": "all stored messages and their order, all modems that keep messages, all messages that arrive meanwhile, any number of repetitions", "why_tests_cant": "The tests list a few stored messages that are all well formed, once; none has a message without text beside others.", "anchors": [{"file": "gsmmodem/modem.py", "symbols": ["GsmModem.listStoredSms", "GsmModem.processStoredSms", "GsmModem._handleSmsReceived"]}, {"file": "gsmmodem/pdu.py", "symbols": ["decodeSmsPdu", "_decodeUserData", "unpackSeptets"]}]}
{"id": "C101", "title": "Every method sends a bounded number of commands, whatever the modem answers", "statement": "Whatever a modem answers, and whatever happens meanwhile: a method sends at most a fixed number of commands that depends on its arguments only (connect 26; a query, a call method or a deletion 1, and 1 more to select a memory; a notification 3; a message 2 for each part; a wait the sum of what happens meanwhile), each repeated only while the modem says it is busy and at most as often as the recursion limit allows. Methods that delete each listed message send at most one deletion for every two lines of the answer. The bounds are reached.", "quantifier": "all methods, arguments, states, modems (any answer to any history) and events during a wait; all histories", "why_tests_cant": "Tests try a few fixed answers; that no answer makes a method repeat or add commands is a statement about all of them.", "anchors": [{"file": "gsmmodem/modem.py", "symbols": ["GsmModem.connect", "GsmModem.write", "GsmModem.listStoredSms", "GsmModem.processStoredSms", "GsmModem.sendSms", "GsmModem.waitForNetworkCoverage", "GsmModem._GsmModem__threadedHandleModemNotification"]}]}
{"id": "C102", "title": "The mode of the modem makes no difference", "statement": "A program that runs with a modem in PDU mode and with one in text mode gets the same messages and reports, and its messages go out the same way. Exactly: one stored message, handed over as octets in PDU mode and as number, time and text in text mode, gives the same object if and only if it names no service centre, its time zone is whole hours, its text is in the GSM alphabet (or empty) and has no CR LF, and no final @ is lost to padding. One status report gives the same object iff both time zones are whole hours.", "quantifier": "all SMS-DELIVER and SMS-STATUS-REPORT octets without user data header, numbers and names without a quote, states read and unread, texts in all three alphabets; all sent messages", "why_tests_cant": "A test compares two hand-written answers; here the two answers are tied to one message, and all messages are quantified over.", "anchors": [{"file": "gsmmodem/modem.py", "symbols": ["GsmModem.readStoredSms", "GsmModem.sendSms", "GsmModem.connect"]}, {"file": "gsmmodem/util.py", "symbols": ["parseTextModeTimeStr"]}, {"file": "gsmmodem/pdu.py", "symbols": ["decodeSmsPdu", "encodeSmsSubmitPdu"]}]}
{"id": "C103", "title": "What a listing in text mode is taken for", "statement": "In text mode every line of a listing that looks like a header begins a message, whoever has written that line; lines OK and messages without any other line are lost; one header that cannot be understood spoils the listing. So what is handed over and deleted is determined exactly, for all lines. As a user would wish it, only messages that were received are handed over, and only those are deleted; this is violated.", "quantifier": "all answers (lists of lines) to AT+CMGL in text mode; all stored messages as shown on the line; all made up headers", "why_tests_cant": "The tests of the library use four fixed listings; the harm comes from texts chosen by a stranger, and from places, senders and states of their choice.", "anchors": [{"file": "gsmmodem/modem.py", "symbols": ["GsmModem.listStoredSms", "GsmModem.processStoredSms"]}]}
{"id": "C104", "title": "How long a method may block", "statement": "A method blocks for the time that the modem takes to answer its commands, and for the pauses between commands. If the modem is never busy that is exactly one pause of the present delay for each answer; if it is busy k times, the pauses of one command are exactly 2wk + 2k^2 tenths of a second (w the delay before), and w + 2k more after the last answer. A modem that does not answer costs one timeout only. The timeout that the caller gives does not bound this time: a modem that stays busy blocks a command for days; and after a failed repetition the delay stays, so that commands become slower without limit.", "quantifier": "all tasks (methods, notifications, calls), all modems, all times that the modem takes, all delays at the beginning, all numbers of busy answers", "why_tests_cant": "Tests replace sleep or wait for real; times that grow with the square of the number of busy answers, up to days, cannot be waited for, and all modems cannot be tried.", "anchors": [{"file": "gsmmodem/modem.py", "symbols": ["GsmModem.write", "GsmModem._writeWait"]}]}
{"id": "C105", "title": "Connecting while other threads are at work", "statement": "The read thread runs from the first moment of connect, so calls and messages are handled in other threads while the modem is being set up. In every interleaving of connect (any number of times) with any methods and notification handlers: no call is forgotten or becomes another call, no callback or report is lost; a connect that ends without exception has got the modem to accept ATZ, ATE0, AT+CMEE=1 and AT+CMGF in that order; a message announced meanwhile is read, deleted and passed on if its handler ends without exception; and the thread that connects submits the PIN at most once (again only after an answer that the modem is busy), directly after the modem told that thread that it is not ready. The selected memory and mode are not kept: a message announced between the noting of the memory and its selection leaves the library believing that the other memory is selected, so that a later notification passes on and deletes another message; a change of smsTextMode at that moment leaves the modem in the other mode.", "quantifier": "for all lists of activities (connect with or without a PIN, methods, notifications, dials, answers, hangups), all schedules of their steps, all modems, all states at the start", "why_tests_cant": "The schedules of a connect of some fifty steps with other threads are exponentially many, and which of them happens depends on when the modem sends a notification; the two harmful windows are a few steps wide.", "anchors": [{"file": "gsmmodem/modem.py", "symbols": ["GsmModem.connect", "GsmModem._unlockSim", "GsmModem._setSmsMemory", "GsmModem.smsTextMode", "GsmModem._handleModemNotification", "GsmModem._handleSmsReceived"]}]}
{"id": "C106", "title": "The expressions for stored messages are there when they are needed", "statement": "readStoredSms needs regular expressions that are None until _compileSmsRegexes has been called in the mode that is used. Without other threads: after a connect that succeeded, and after any sequence of methods and handlers, the expressions for the present mode are there, also when the mode is changed, so they never make a difference. With threads: in a mode whose expressions are there, as long as no thread changes to the other mode, or when those for both modes are there, exactly that can happen which can happen in the model that takes them for granted, in every interleaving. When they are missing, readStoredSms ends with an AttributeError whatever the modem answers, and a message that is announced then is neither passed on nor deleted. That happens: in connect, to each message announced before the expressions are compiled; and when the mode is changed for the first time, to a message announced between the assignment of the mode and the compiling, or to a status report announced between the compiling of the first expression and of the second.", "quantifier": "for all lists of activities, all schedules of their steps, all modems, all states in which the expressions concerned have been compiled (or have not)", "why_tests_cant": "Whether a handler meets None depends on the moment at which a notification arrives; the positive part is about all schedules of all methods, and about an equality of the sets of behaviours of two models.", "anchors": [{"file": "gsmmodem/modem.py", "symbols": ["GsmModem._compileSmsRegexes", "GsmModem.readStoredSms", "GsmModem.smsTextMode", "GsmModem.connect", "GsmModem._handleSmsReceived", "GsmModem._handleSmsStatusReport"]}]}
{"id": "C107", "title": "Two messages look alike on the wire exactly when they are requests for the same", "statement": "Of two calls of encodeSmsSubmitPdu that succeed, on texts and addresses without escape characters and validities that can be stated, the PDUs are the same exactly when the calls ask for the same: the same destination (number with its digits and its type, or name but for a final @ that fills the last octet), the same service centre, the same validity (periods: the same of the 256 stated periods fit in both; moments: the same to the second, with the zone to the quarter of an hour and its sign), the same reference, report, duplicate and flash options, the same alphabet and number of parts, and the same characters that have a place in them. So nothing that is asked for is lost, and different requests are not confused: between telephone numbers, with texts conveyed whole, equal PDUs mean equal arguments. The same holds for the commands of sendSms in both modes.", "quantifier": "for all pairs of requests (numbers, names, texts of any length, references, validities, service centres, options), all Unicode databases", "why_tests_cant": "It is about all pairs of arguments: that no two of them collide cannot be shown by comparing outputs with expected ones, and the exact list of the collisions that exist (names, long texts, escape) needs the injectivity of every field of the encoder.", "anchors": [{"file": "gsmmodem/pdu.py", "symbols": ["encodeSmsSubmitPdu", "_encodeAddressField", "_encodeTimestamp", "_encodeRelativeValidityPeriod", "packSeptets", "encodeGsm7", "encodeUcs2"]}, {"file": "gsmmodem/modem.py", "symbols": ["GsmModem.sendSms"]}]}
{"id": "C108", "title": "How long connecting and waiting for the network take", "statement": "connect takes the time that the modem takes for its answers and one pause of the present delay for each, which is at most 26 times the time of one command, and that bound is reached; whatever the modem answers it ends; and if the modem does not answer at all it ends after the first timeout. waitForNetworkCoverage with a timeout does what C45 says of a number of rounds, less than one for each second of the timeout and one more; it ends less than one second and one command after the timeout, which is also reached; it never gives up before the timeout as long as the modem answers and does not refuse; and when there is coverage from some moment on, it returns the signal strength within two rounds and one command of that moment, if the timeout leaves these.", "quantifier": "for all modems, also with answers that depend on the time, all times that the answers take, all timeouts, all moments at which there is coverage, all delays", "why_tests_cant": "Tests cannot wait for real, and replace sleep; the bounds are about all timeouts and all moments at which the network is found.", "anchors": [{"file": "gsmmodem/modem.py", "symbols": ["GsmModem.connect", "GsmModem.waitForNetworkCoverage", "GsmModem.signalStrength", "GsmModem.write"]}]}
{"id": "C109", "title": "Threads together do no more than each of them may, and each comes to its end", "statement": "However the threads of a program take turns — methods for messages and calls, the handlers of notifications, the threads that watch calls, connect, and methods that wait for events — at every moment they have together sent no more commands than the sum of what each may send alone, called back no more often than there were causes (once for each notification, answering and hanging up; twice for a call that is watched), and created no more than one object for each message sent and each call dialled or announced. A thread that gets its turn again and again comes to its end, whatever the modem answers and even if other threads are left standing in the middle of their work; so if none is forgotten there is a moment when all are at their end.", "quantifier": "for all numbers of threads and all their methods, all schedules, finite and infinite, all answers of the modem, all states at the beginning", "why_tests_cant": "The number of interleavings grows exponentially with the number of steps, and that something happens at last cannot be seen in a run of any length.", "anchors": [{"file": "gsmmodem/modem.py", "symbols": ["GsmModem.write", "GsmModem.connect", "GsmModem._handleModemNotification", "GsmModem._pollCallStatus", "GsmModem.sendSms", "GsmModem.dial", "GsmModem.sendUssd"]}]}
{"id": "C110", "title": "Stored messages are neither lost nor handed over twice, whichever mode is used and however often it is changed", "statement": "On a modem that keeps messages and shows them in PDU mode or in text mode, and for every sequence of operations in which the mode is changed at will: the messages handed over to the user are exactly those that have left the modem, each once and as it is shown in one of the modes, and every other message that was there or came is still there. The library is right about the mode all the time, also when the modem refuses to change it, and after connecting the modem is in the mode that the user had chosen. Processing the stored messages hands over all received messages of the selected memory of which something is shown; one of which nothing is shown in text mode (its text consists of line ends) stays on the modem for ever, without an error.", "quantifier": "for all sequences of operations that do not delete on the user’s demand, all messages that come at any moments, all ways in which the modem shows messages in text mode, all states at the beginning", "why_tests_cant": "The two modes use different commands and different parsers, and the mode kept by the library and that of the modem are separate; only over all histories of changes, refusals and arrivals can it be seen that they agree and that nothing is lost.", "anchors": [{"file": "gsmmodem/modem.py", "symbols": ["GsmModem.smsTextMode", "GsmModem.processStoredSms", "GsmModem.listStoredSms", "GsmModem._handleSmsReceived", "GsmModem.readStoredSms", "GsmModem.connect"]}]}
{"id": "C111", "title": "How long methods that wait for a notification block", "statement": "sendUssd, dial, and sendSms with waitForDeliveryReport end at the moment at which the awaited notification has been handled, or with the end of the command if that was before; if none comes, they raise TimeoutException exactly the time-out after the end of the command, never earlier and never later. What they return is what they return without the clock when just that happens which happens in time. On a modem that is not busy, sendUssd and dial thus take at most twice their time-out (and the delay between commands), and sendSms at most the time-out more than its commands. A report that comes before the last part of the message has been sent is not waited for.", "quantifier": "for all modems, all delays of their answers, all sequences of notifications and polls with all moments at which they are handled, all time-outs, all states", "why_tests_cant": "A test fixes a few delays; the statement is about every order in time of answer, notification and time-out, including those where the time-out begins only after a slow answer.", "anchors": [{"file": "gsmmodem/modem.py", "symbols": ["GsmModem.sendUssd", "GsmModem.dial", "GsmModem.sendSms", "GsmModem._pollCallStatus"]}]}
{"id": "C112", "title": "The table of calls follows the calls on the line", "statement": "On a modem that reports the progress of calls, after any history of the telephone line (calls that come, ring, are answered by either side, end by either side; calls that are made; refused dialling and answering; and other work of the program and other notifications in between) the program has exactly one object for each call, in order, which shows its number, whether it is answered, over or still ringing, and how often it has rung; activeCalls has exactly the calls that are not over; and the callback for incoming calls has been called once for each ring, in order, with the object of the call that rang. This holds as long as no two current calls are with the same number and the number that the modem gives a new call is the one the program expects, in particular whenever there is only one call at a time. (It fails for a third call after the first of two has ended, on a modem that reports no progress, and after a refused hangup of a ringing call.)", "quantifier": "for all histories of the line of any length, all numbers, all modems, all states to begin with in which there are no calls", "why_tests_cant": "A test plays one short history with one or two calls; the statement relates the table to the line after every history, with calls from the same number one after the other and with all other work in between.", "anchors": [{"file": "gsmmodem/modem.py", "symbols": ["GsmModem._handleIncomingCall", "GsmModem._handleCallInitiated", "GsmModem._handleCallAnswered", "GsmModem._handleCallEnded", "GsmModem.dial", "IncomingCall.answer", "IncomingCall.hangup", "Call.hangup"]}]}
{"id": "C113", "title": "A call whose status is polled follows the line", "statement": "On a modem that does not report the progress of calls, dial returns only once its polling thread has seen the call ring, and from then on, whatever else the program does and hears that does not concern calls, the call object and activeCalls show exactly the stage of the call (begun, answered, over) at which the thread last looked or at which the program hung up; nothing else in the list of calls and in the table changes; and the status callback is called exactly once for each change of stage. If the modem lists what is on the line, is never busy and answers within T, the object is never further behind the line than half a second and the time of one query.", "quantifier": "all lengths of histories; all orders of queries, hanging up (accepted or refused), other operations and other notifications; all answers of the modem consistent with the stages; all other calls in the table; all waiting times up to any T", "why_tests_cant": "The histories are unbounded and mix several threads; a test sees a few fixed sequences of answers, usually without hanging up, other work or notifications in between, and does not measure how far the object is behind.", "anchors": [{"file": "gsmmodem/modem.py", "symbols": ["GsmModem._pollCallStatus", "GsmModem.dial", "GsmModem._handleCallInitiated", "GsmModem._handleCallAnswered", "GsmModem._handleCallEnded", "GsmModem._handleCallRejected", "Call.hangup"]}]}
{"id": "C114", "title": "The status of a sent message follows the reports of the message centre", "statement": "Whatever the program does, sends, and hears, in any order, the object of a sent message shows the reference that the modem gave to its last part, and as its status exactly the result of the last report on this part that the program got: en route if there was none, delivered for the result 0, failed for any other one; provided that each report comes before its reference is used again, and that the reference of the message was not used again by a part that is not the last of its message. With modems that count references this holds for all messages among the last 256 parts. If no other reports are on their way, sendSms with waitForDeliveryReport returns only once the status of its own message is known.", "quantifier": "all lengths of histories; all messages, numbers of parts and references; all orders of messages sent, messages that failed half-way, reports, reports on messages of others, reports that cannot be fetched, other notifications, polling, and other operations; all behaviours of the modem", "why_tests_cant": "The tests send one message and bring one report to it. Which object a report changes depends on all messages sent before and on the references they got, of which there are only 256.", "anchors": [{"file": "gsmmodem/modem.py", "symbols": ["SentSms", "SentSms.status", "GsmModem.sendSms", "GsmModem._handleSmsStatusReport", "GsmModem.readStoredSms"]}]}
{"id": "C115", "title": "Nothing is sent that was not asked for", "statement": "Every line that a method of GsmModem, Call or Ussd writes to the modem is of one of the kinds that belong to the method, whatever the modem answers and whatever notifications come in between: only dial dials, only sendSms sends messages, only sendUssd and reply of an active session send USSD requests, only answer takes calls, only hangup ends them, only the methods that delete messages, and the handling of a message notification, delete messages. Notifications from outside make the program do nothing but choose the memory, read and delete a stored message (if they announce one) or ask for the type of ringing (if they announce a call). The kinds exclude each other.", "quantifier": "all methods with all arguments; all histories of methods and events; all states; all behaviours of the modem; all notifications", "why_tests_cant": "The tests compare the commands of a few scripted runs. That a command is never sent is a statement on all runs, in particular on all answers and notifications that a modem or a stranger may cause.", "anchors": [{"file": "gsmmodem/modem.py", "symbols": ["GsmModem.write", "GsmModem.sendSms", "GsmModem.sendUssd", "GsmModem.dial", "GsmModem.__threadedHandleModemNotification", "GsmModem._handleIncomingCall", "GsmModem._handleSmsReceived", "GsmModem._handleSmsStatusReport", "GsmModem.listStoredSms", "Call.answer", "Call.hangup", "Call.sendDtmfTone", "Ussd.reply", "Ussd.cancel"]}]}
{"id": "C116", "title": "A USSD dialogue shows the pages of the service", "statement": "The USSD service of the network is any function from the inputs of a session to a page. If the modem accepts an input and the network shows the page, in the answer or in a notification before the time is up, the Ussd object that sendUssd or reply returns shows the page that belongs to all the inputs of this session, and says the session is active exactly if the service waits for another input. So in every history of requests, replies, cancellations and other work, with refusals and repeated commands at any place, the objects show the pages in order, as if the user sat before the service; and the last object tells whether a session is open. This holds as long as the user replies to the last object only and makes no new request in an open session. Otherwise it fails: cancel leaves its object active, so does the end of the session leave the earlier objects; their replies are sent, and the network takes them for new requests. A new request in an open session is taken for an input. What the network sends unasked is dropped.", "quantifier": "all services; all inputs; all modems, with refusals and busy answers; all histories; all notifications in between", "why_tests_cant": "The tests play one session of two fixed messages. The dialogue depends on a service of any shape, on where the results arrive, and on what was refused before.", "anchors": [{"file": "gsmmodem/modem.py", "symbols": ["GsmModem.sendUssd", "GsmModem._handleUssd", "GsmModem._parseCusdResponse", "Ussd.reply", "Ussd.cancel"]}]}
{"id": "C117", "title": "Which answers of the modem count as sent", "statement": "When the modem has accepted every command and message of sendSms, the message is recorded as sent exactly if the text of its +CMGS: line from the eighth character on is a whole number (blanks, a sign, digits, possibly in groups with underscores between them), and with this number as reference; otherwise sendSms raises ValueError and remembers nothing. So the plain answer +CMGS: <mr> of 27.005 always gives the reference of the modem. The code fails for the other form that 27.005 allows, +CMGS: <mr>,<scts> or <ackpdu>: for every such answer the message is sent but sendSms raises ValueError, and it loses or refuses references after +CMGS: without a blank.", "quantifier": "all texts that are given to int; all destinations, texts, modes and states; all modems and answers", "why_tests_cant": "The tests use the plain answer only. The theorems decide every text.", "anchors": [{"file": "gsmmodem/modem.py", "symbols": ["GsmModem.sendSms"]}, {"file": "gsmmodem/util.py", "symbols": ["lineStartingWith"]}]}
{"id": "C118", "title": "After every history nothing is awaited, and what is remembered", "statement": "The methods that wait for a notification (sendUssd, Ussd.reply, dial, sendSms with waitForDeliveryReport) leave nothing awaited when they end, however they end; all other methods, events and connect do not change what is awaited. So after every history nothing is awaited: a delivery report that comes then goes to the callback, and a late USSD answer or start of a call changes nothing. The table of sent messages has at most 256 entries as long as the modem numbers messages with an octet. There is no such bound for the table of calls: on modems that do not report the ends of calls it grows with every number whose call was missed.", "quantifier": "all histories of methods and events; all modems, refusals, missing answers and exceptions; all numbers of missed calls", "why_tests_cant": "A wait that is left over shows only in what happens to some later notification, and growth only in long histories; the theorems cover all ways in which a method can end and all lengths.", "anchors": [{"file": "gsmmodem/modem.py", "symbols": ["GsmModem.sendUssd", "GsmModem.dial", "GsmModem.sendSms", "GsmModem._handleSmsStatusReport", "GsmModem._handleUssd", "GsmModem._handleCallInitiated", "GsmModem._handleIncomingCall"]}]}
{"id": "C119", "title": "The command line of the tools says what they do", "statement": "sendsms.py, identify-modem.py and gsmterm.py read their command line with argparse, on Python 2.6 with optparse and PosOptionParser. For every command line whose options are written in any of the usual ways (letter or name, also the beginning of a name that no other option has; value joined, after a space or after =), in any order and with the argument anywhere between them, both give the same settings, namely those that were written, if there is exactly one argument, and a complaint otherwise. Words that belong to no option are refused by both. The order makes no difference as long as no option is given twice. The tools then do with the modem what they do with these arguments, and with a command line that is refused nothing. The two parsers do not agree on all command lines, and identify-modem.py shows the PIN on the screen.", "quantifier": "all lists of sound pieces of a command line, all lengths, orders and values; all tables of options with different letters and names; all modems", "why_tests_cant": "There are infinitely many command lines, and two parsers that work in different ways; the scripts in tools/ have no tests.", "anchors": [{"file": "tools/sendsms.py", "symbols": ["parseArgs", "parseArgsPy26", "main"]}, {"file": "tools/identify-modem.py", "symbols": ["parseArgs", "parseArgsPy26", "main"]}, {"file": "tools/gsmterm.py", "symbols": ["parseArgs", "parseArgsPy26"]}, {"file": "tools/gsmtermlib/posoptparse.py", "symbols": ["PosOptionParser"]}]}
{"id": "C120", "title": "A text arrives whichever modes the two modems are in", "statement": "A program sends a text in the GSM alphabet that fits into one message, its modem being in text or in PDU mode. The modem takes over one message, once however often it was busy. Whatever the service centre adds, and whichever mode the modem of the receiver is in, a program that is told of the message gets a message with the sender, and with this text: in text mode the lines of it joined by line feeds, in PDU mode all of it except for one @ at the end of a text that fills its last octet. So the text got is the text sent exactly if it has no CR LF, or does not end with such an @, and the mode of the sender makes no difference. In text mode such a text cannot be mistaken by the modem, and longer texts or texts in other alphabets, which PDU mode divides and encodes, cannot be sent at all although the library hands them over.", "quantifier": "all texts in the GSM alphabet of 1 to 160 septets, all numbers, all four combinations of modes, all modems, service centres, times and places of storage", "why_tests_cant": "The tests use one mode at a time and never connect a sender with a receiver; the way leads through two programs, two modems and a service centre.", "anchors": [{"file": "gsmmodem/modem.py", "symbols": ["GsmModem.sendSms", "GsmModem._handleSmsReceived", "GsmModem.readStoredSms", "GsmModem.smsTextMode"]}, {"file": "gsmmodem/pdu.py", "symbols": ["encodeSmsSubmitPdu", "decodeSmsPdu"]}]}
{"id": "C121", "title": "An answer goes to whoever wrote the message", "statement": "ReceivedSms.reply sends a text to the sender of the message. In PDU mode every PDU of the answer has, in the address field of the destination, the same digits and the same kind of number as the address field of the sender had, or the octets of the same name, exactly unless the sender has a name that looks like a number; in text mode the command has the number that the modem has shown, and the modem dials it, exactly unless it is a name. So an answer to a number arrives there with its text, in any combination of modes. A message without sender is not answered (AttributeError) in PDU mode; in text mode the answer is sent to the word None. Names that look like numbers violate it: the answer goes to a number chosen by whoever wrote the message.", "quantifier": "all address fields of senders (all types of numbers, all digits, all names in the GSM alphabet), all texts, both modes, all modems", "why_tests_cant": "The one test of reply uses one number and looks at the attributes of the SentSms, not at the address on the wire; the addresses are infinitely many, and the exception concerns names that no ordinary telephone can send.", "anchors": [{"file": "gsmmodem/modem.py", "symbols": ["ReceivedSms.reply", "GsmModem.sendSms"]}, {"file": "gsmmodem/pdu.py", "symbols": ["_decodeAddressField", "_encodeAddressField"]}, {"file": "examples/sms_handler_demo.py", "symbols": ["handleSms"]}]}
{"id": "C122", "title": "Waiting for an answer works on every version of Python", "statement": "On every version of Python that the library supports (2.6 with the patch of compat.py, however often it was applied, 2.7 and 3), whatever the interleaving of the waiting thread with the threads that set the event: if the event is set before the time is over, wait returns true, and does so after a bounded number of steps; if it is never set, wait returns false. So write returns a response that was complete in time. Without the patch Python 2.6 always returns None and every write ends with TimeoutException. Only Python 2 before 2.7 is patched. The versions do not agree on events that come after the time is over, and the patch would miss events that were cleared again; the library never clears its events.", "quantifier": "all interleavings of the steps of wait with set and the end of the time, all versions, any number of layers of the patch", "why_tests_cant": "Tests run on one version of Python and cannot choose the interleavings; the window between the end of the time and the last look at the flag is a few instructions wide.", "anchors": [{"file": "gsmmodem/compat.py", "symbols": ["wrapWait"]}, {"file": "gsmmodem/serial_comms.py", "symbols": ["SerialComms.write"]}]}
{"id": "C123", "title": "The times of messages can be compared", "statement": "The times that the library gives for messages and reports read in PDU mode can always be compared with and subtracted from each other without an exception, and the result is that for the instants at which the message centres wrote them, whatever the zones. In text mode the difference is wrong by the parts of the two zones that are not whole hours: exactly (p rem 4 - q rem 4) quarters of an hour for the zones p and q; so the order is right if these parts are equal or the messages are more than an hour and a half apart. It is violated otherwise: a later message can seem to be the earlier one. A time shown with a zone of 24 hours or more is accepted in text mode and raises ValueError when it is compared with any other.", "quantifier": "all dates and times of 1969-2068, all zones, all time fields of PDUs (also meaningless octets)", "why_tests_cant": "The tests look at single times, most of them in zones of whole hours; order is a property of pairs of times in different zones, across leap days and ends of years.", "anchors": [{"file": "gsmmodem/util.py", "symbols": ["SimpleOffsetTzInfo.utcoffset", "parseTextModeTimeStr"]}, {"file": "gsmmodem/pdu.py", "symbols": ["SmsPduTzInfo.utcoffset", "SmsPduTzInfo._setPduOffsetStr", "_decodeTimestamp"]}]}
{"id": "C124", "title": "The terminal on Windows", "statement": "The console class for Windows tells the keys from each other in every order. A session there leaves the terminal with the same line, cursor, history and characters sent to the modem as the same keys on a POSIX system, except that Home, End and Delete do nothing. While only characters are typed, with Enter, the tabulator, CTRL+Z and ESC, the screen is the same too. It is violated for the Backspace key (character 8 on Windows), which is ignored; for a letter with the code 0xE0, which swallows the next key; and for the arrows: every arrow that moves the cursor spoils the screen, because the codes read from the keyboard are written to it.", "quantifier": "all sequences of keys, all states of the terminal, all modems", "why_tests_cant": "There are no tests of the terminal, and the code for Windows is not even imported elsewhere; sequences of keys are unbounded.", "anchors": [{"file": "tools/gsmtermlib/terminal.py", "symbols": ["Console.getkey", "GsmTerm._inputLoop", "GsmTerm._refreshInputPrompt", "GsmTerm._cursorLeft"]}]}
{"id": "C125", "title": "With callbacks that use the modem nothing is sent that nobody asked for", "statement": "When the code of the callbacks uses methods of the modem, and these cause further callbacks to any depth, every line that is sent is of a kind that one of the methods used by the program or by the code of the callbacks may send, or one of those by which the program itself reacts to what comes from outside (choosing the memory, reading and removing messages, the kind of rings, the state of calls). In particular a program that only waits, with callbacks that do not dial, never dials, whatever is received. What a notification makes the program send by itself is sent before the code of the user is run.", "quantifier": "all programs of callbacks, all depths, all histories of methods and events, all answers of the modem", "why_tests_cant": "Programs, outcomes and histories are unbounded; tests use callbacks that only set a flag.", "anchors": [{"file": "gsmmodem/modem.py", "symbols": ["GsmModem._handleModemNotification", "GsmModem.__threadedHandleModemNotification", "GsmModem._handleSmsReceived", "GsmModem._handleIncomingCall", "GsmModem._handleCallEnded", "GsmModem.processStoredSms"]}]}
{"id": "C126", "title": "Several threads together send nothing that none of them may send", "statement": "When methods, notifications and the polling of calls run in threads of their own, which take their steps in any order and wait for each other, every line on the serial port is of a kind that one of the threads may send which has taken a step (or is the command that the program wrote itself). Only threads that dial dial, only those that send messages send them, only those for USSD send requests, and calls are taken, ended and sent tones only by the threads for it. However many notifications are handled at once, they never make the program do any of this.", "quantifier": "all sets of threads, all schedules, all answers of the modem, all states", "why_tests_cant": "The number of interleavings is unbounded, and the tests run one method at a time.", "anchors": [{"file": "gsmmodem/modem.py", "symbols": ["GsmModem._handleModemNotification", "GsmModem.__threadedHandleModemNotification", "GsmModem.dial", "GsmModem.sendSms", "GsmModem.sendUssd", "GsmModem._pollCallStatus"]}]}
{"id": "C127", "title": "Each thread keeps the order of its own lines", "statement": "When methods and notifications run in threads of their own, whose steps are taken in any order, what goes out on the serial port is made up of the lines of the threads, and the lines of a thread that sends, fetches, lists or deletes messages are its commands in their order: none is left out, and one is repeated only when the modem is busy. This holds whether the thread comes to its end or not; if it succeeds, it has sent all of them. So the text of a message is only sent by a thread that has announced one, and the thread of a notification deletes the message only after it has read it. The lines of a thread should also follow each other where the modem expects that, which they do not: the command of another thread can come between the announcement of a message and its text.", "quantifier": "all sets of threads, all schedules, all answers of the modem, all states", "why_tests_cant": "The number of interleavings is unbounded, and the tests send one message at a time.", "anchors": [{"file": "gsmmodem/modem.py", "symbols": ["GsmModem.sendSms", "GsmModem._handleSmsReceived", "GsmModem._handleSmsStatusReport", "GsmModem.readStoredSms", "GsmModem.deleteStoredSms", "GsmModem.write", "GsmModem.listStoredSms", "GsmModem.deleteMultipleStoredSms"]}]}
{"id": "C128", "title": "A thread whose command is refused sends nothing more", "statement": "A thread that sends, fetches, lists or deletes messages sends its next command only after the modem has taken the one before, and repeats a command only while the modem is busy, whatever other threads send between its lines. After a refusal or a timeout it sends nothing more. If sendSms succeeds, the modem has taken the announcement and the text of every part; the text of a part is only sent after the modem has taken an announcement of the same thread; the thread of a notification deletes a message only after the modem has shown it, and a thread that lists messages only if it was asked to, and after it got the listing. What it deletes should be what was listed, which does not hold: another thread can choose another memory in between, whose messages are then all deleted.", "quantifier": "all sets of threads, all schedules, all answers of the modem, all states", "why_tests_cant": "A refusal can come at any line of any thread, and in any of unboundedly many interleavings; the tests refuse single commands of a single thread.", "anchors": [{"file": "gsmmodem/modem.py", "symbols": ["GsmModem.write", "GsmModem.sendSms", "GsmModem._handleSmsReceived", "GsmModem._handleSmsStatusReport", "GsmModem.readStoredSms", "GsmModem.deleteStoredSms", "GsmModem.listStoredSms", "GsmModem.deleteMultipleStoredSms"]}]}
{"id": "C129", "title": "Threads that name one memory read and delete in it", "statement": "If no thread names another memory than m, a thread that names m (in a call of a method, or by the notification it handles) reads, lists and deletes messages only while m is the memory that the modem has last agreed to use, whatever the schedule, even if several threads select m at once, whether or not m was selected before, and while other threads handle notifications, poll, dial, answer, hang up or send tones. The modem object then notes m only while it is in use, so the same holds of later threads. With two memories this fails.", "quantifier": "all sets of threads, all schedules, all answers of the modem, all states in which the memory is not noted wrongly", "why_tests_cant": "The memory is selected in one step, noted in another and used in later ones; other threads can come between in unboundedly many ways, and the tests run one thread.", "anchors": [{"file": "gsmmodem/modem.py", "symbols": ["GsmModem._setSmsMemory", "GsmModem.readStoredSms", "GsmModem.deleteStoredSms", "GsmModem.deleteMultipleStoredSms", "GsmModem.listStoredSms", "GsmModem._handleSmsReceived", "GsmModem._handleSmsStatusReport"]}]}
{"id": "C130", "title": "While threads set no other mode, commands are in the form of the mode in use", "statement": "If no thread sets another message mode than the one noted, the noted mode never changes, no AT+CMGF is sent, and every command that lists messages or announces one has the form of that mode (a quoted text in text mode, a number in PDU mode), whatever the schedule and whatever else the threads do. If the modem was in that mode, it is in it at every line. If a thread sets the other mode, a listing can be asked for in the form of the mode before.", "quantifier": "all sets of threads, all schedules, all answers of the modem, all states", "why_tests_cant": "The mode is looked at in one step and used in later ones, and the form depends on it; the interleavings are unbounded in number, and the tests run one thread.", "anchors": [{"file": "gsmmodem/modem.py", "symbols": ["GsmModem.smsTextMode", "GsmModem.sendSms", "GsmModem.listStoredSms", "GsmModem.readStoredSms"]}]}
