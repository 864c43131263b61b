{"id": "C01", "title": "Shape gate: only 132-column S/T records with a numeric tail are accepted", "statement": "Record.read(line) returns True only if line, after removing surrounding whitespace, is exactly 132 characters long, starts with 'S' or 'T', and its last nine characters are all numeric. Conversely, a line failing any of these is rejected with False: no exception, nothing printed, and every attribute of the Record object is left exactly as it was.", "quantifier": "every string passed to read and every prior state of the Record object", "why_tests_cant": "the input space is all Unicode strings; tests only sample a few lines", "anchors": ["src/arinc424/record.py:Record.validate", "src/arinc424/record.py:Record.read"]}
{"id": "C02", "title": "Section gate: unsupported sections are rejected quietly", "statement": "If a well-shaped line names, neither in columns 5-6 nor in columns 5 and 13, one of the 42 supported section codes, read returns False, prints nothing, raises nothing, and changes at most the raw text of the Record.", "quantifier": "every well-shaped line and every prior Record state", "why_tests_cant": "unsupported codes are an unbounded set of two-character strings", "anchors": ["src/arinc424/record.py:Record.read", "src/arinc424/record.py:records"]}
{"id": "C03", "title": "Section resolution: columns 5-6 win over columns 5+13", "statement": "Whenever read returns True, the record's ident is a supported section code; it is the two characters line[4:6] if these form a supported code, and otherwise line[4]+line[12].", "quantifier": "every line that read accepts, every prior Record state", "why_tests_cant": "needs all combinations of three columns over the whole alphabet", "anchors": ["src/arinc424/record.py:Record.read", "src/arinc424/record.py:records"]}
{"id": "C04", "title": "Verbatim extraction: every field value is the record's own columns", "statement": "For an accepted line without leading whitespace, every field's value is exactly the contents of fixed columns of the record (one column, a column range, or columns 5 and 13 joined), inside the 132 columns, so no field is ever truncated, padded or altered; its width does not depend on the record's contents.", "quantifier": "every accepted line without leading whitespace and every field of it", "why_tests_cant": "ranges over all record contents of every record type", "anchors": ["src/arinc424/record.py:Record.read", "src/arinc424/definitions/*.py:read*"]}
{"id": "C05", "title": "Envelope: every accepted record starts with Record Type and ends with File Record No and Cycle Date", "statement": "For an accepted line without leading whitespace the first field is 'Record Type' with the first character ('S' or 'T'), and the last two fields are 'File Record No' with columns 124-128 and 'Cycle Date' with columns 129-132, all numeric characters.", "quantifier": "every accepted line of every record type", "why_tests_cant": "must hold for all 80+ layouts and every content", "anchors": ["src/arinc424/record.py:Record.read", "src/arinc424/definitions/*.py"]}
{"id": "C06", "title": "Layout determinism", "statement": "The list of field names (and the columns each is read from) of an accepted record depends only on its section code, on whether it is treated as a primary record, and on its application type; two accepted lines agreeing on these have the same field names in the same order.", "quantifier": "every pair of accepted lines, every prior Record states", "why_tests_cant": "relates pairs of arbitrary inputs", "anchors": ["src/arinc424/record.py:Record.read", "src/arinc424/definitions/*.py:read"]}
{"id": "C07", "title": "Trailing whitespace is irrelevant", "statement": "For a line without leading whitespace, reading the line with any whitespace (newline, CR, blanks, tabs) appended gives the same result, the same printed output and the same Record as reading the line alone.", "quantifier": "every line without leading whitespace and every whitespace suffix, every prior Record state", "why_tests_cant": "unbounded suffixes and contents", "anchors": ["src/arinc424/record.py:Record.read", "src/arinc424/record.py:Record.validate"]}
{"id": "C08", "title": "Leading whitespace is irrelevant", "statement": "The documented behaviour ('remove any surrounding whitespace') promises that reading a line with whitespace put in front gives the same result as the line alone. (The code violates this: shape is checked on the stripped text but sections and fields are cut from the unstripped line.)", "quantifier": "every line and every whitespace prefix", "why_tests_cant": "a universally quantified relational claim; needs a proof or a counterexample", "anchors": ["src/arinc424/record.py:Record.read"]}
{"id": "C09", "title": "read raises only ValueError, and only for five sections", "statement": "For every string, read either returns a bool or raises ValueError; it never raises IndexError, AttributeError or exits. It raises exactly when the line is well-shaped, its section is ER, EV, HV, PP or EU, its continuation number (if the type has one) is alphanumeric, it is not treated as primary (or is EU) and its application/restriction type is not one the section supports.", "quantifier": "every string, every prior Record state", "why_tests_cant": "absence of exceptions over all inputs cannot be sampled", "anchors": ["src/arinc424/record.py:Record.read", "src/arinc424/definitions/EnrouteAirways.py:EnrouteAirways.read", "src/arinc424/definitions/EnrouteCommunications.py:EnrouteCommunications.read", "src/arinc424/definitions/HeliportCommunications.py:HeliportCommunications.read", "src/arinc424/definitions/PathPoint.py:PathPoint.read", "src/arinc424/definitions/EnrouteAirwaysRestriction.py:EnrouteAirwaysRestriction.read"]}
{"id": "C10", "title": "Unsupported application types are reported, not raised", "statement": "A continuation record whose application type the section does not support makes read return False without raising. (False for ER, EV, HV, PP and EU, which raise ValueError, and for HC, which accepts; true for every other section.)", "quantifier": "every well-shaped continuation line of every section, every application type character", "why_tests_cant": "needs every application character for every section", "anchors": ["src/arinc424/record.py:Record.read", "src/arinc424/definitions/*.py:read"]}
{"id": "C11", "title": "Accepted continuation records carry a declared application type", "statement": "If read accepts a line without leading whitespace as a continuation record of a section that has a continuation column, then its application type is in that record definition's declared `continuations` list. (False for HC Heliport Terminal Waypoints: any type is accepted, because the guarding test `... and not 'J'` can never be true.)", "quantifier": "every accepted continuation line", "why_tests_cant": "universally quantified over application characters", "anchors": ["src/arinc424/record.py:Record.read", "src/arinc424/definitions/HeliportTerminalWaypoint.py:HeliportTerminalWaypoint.read"]}
{"id": "C12", "title": "Bad continuation numbers are rejected with a diagnostic, and only then does read print", "statement": "If a well-shaped line of a section with a continuation column has a non-alphanumeric character in that column, read returns False after printing exactly three lines naming the record type, the character and the record. In every other case read prints nothing at all.", "quantifier": "every string, every prior Record state", "why_tests_cant": "all inputs; absence of output on all other paths", "anchors": ["src/arinc424/record.py:Record.read"]}
{"id": "C13", "title": "primary() and hasCont() report the continuation column", "statement": "After an accepted read of a section with a continuation column, primary() is True iff that column of the stripped record is '0' or '1', and hasCont() is True iff it is '1'. hasCont() implies primary() in every state, and both are False on a fresh Record.", "quantifier": "every accepted line; every Record state reachable by any sequence of reads", "why_tests_cant": "all histories of an object", "anchors": ["src/arinc424/record.py:Record.primary", "src/arinc424/record.py:Record.hasCont"]}
{"id": "C14", "title": "primary() is True for every primary record", "statement": "README: primary() is True for a primary record. Sections whose definition has no continuation column (AS, EU, 'R ', RA, TC) only have primary layouts reachable, or records with continuation number 0/1, yet on a fresh Record primary() is False after every accepted read of them. (Refuted; true for all other sections.)", "quantifier": "every accepted line of those sections read by a fresh Record", "why_tests_cant": "universal negative: no line of these sections is ever reported primary", "anchors": ["src/arinc424/record.py:Record.primary", "src/arinc424/definitions/GridMORA.py:GridMORA", "src/arinc424/definitions/CruisingTables.py:CruisingTables", "src/arinc424/definitions/CompanyRoute.py:CompanyRoute", "src/arinc424/definitions/Alternate.py:Alternate", "src/arinc424/definitions/EnrouteAirwaysRestriction.py:EnrouteAirwaysRestriction"]}
{"id": "C15", "title": "Reusing a Record object does not change what read returns", "statement": "For a line that does not resolve to section EU, the value returned (or exception raised), the output printed and, on success, the fields, ident and raw of a reused Record after any history of reads equal those of a fresh Record. (False for EU: the stale continuation number of an earlier record decides whether the line is read as primary.)", "quantifier": "every line and every history of earlier reads on the same object", "why_tests_cant": "all histories", "anchors": ["src/arinc424/record.py:Record.read", "src/arinc424/definitions/EnrouteAirwaysRestriction.py:EnrouteAirwaysRestriction.read"]}
{"id": "C16", "title": "primary()/hasCont() are not stale after reuse", "statement": "For a line whose section has a continuation column, primary() and hasCont() after an accepted read on a reused Record equal those on a fresh one. (False for the sections without a continuation column, which keep the previous record's number.)", "quantifier": "every accepted line and every history of earlier reads", "why_tests_cant": "all histories", "anchors": ["src/arinc424/record.py:Record.read", "src/arinc424/record.py:Record.primary"]}
{"id": "C17", "title": "A failed read leaves a coherent record", "statement": "After read returns False the Record still describes one record: its fields were cut from its raw text. (False: a non-alphanumeric continuation number, an unsupported section or an exception leave the previous record's fields under the new raw/ident. True when the failure is a shape failure, or an unsupported application type, which leaves no fields.)", "quantifier": "every line for which read fails, every prior history", "why_tests_cant": "all failing lines and all histories", "anchors": ["src/arinc424/record.py:Record.read"]}
{"id": "C18", "title": "Enroute airway restriction primary records are read with the primary layout", "statement": "A fresh Record reads a primary EU line (continuation number 0 or 1) with the primary layout of its restriction type. (Refuted: on a fresh Record an EU line is always read with the continuation layout, and a seasonal-closure 'SC' line always raises ValueError.)", "quantifier": "every well-shaped EU line", "why_tests_cant": "universal negative over all EU lines", "anchors": ["src/arinc424/definitions/EnrouteAirwaysRestriction.py:EnrouteAirwaysRestriction.read", "src/arinc424/record.py:Record.read"]}
{"id": "C19", "title": "decode() tabulates the record faithfully", "statement": "When decode() returns, its table has exactly one row per field in field order, each row holding the field's name, its raw value in single quotes, and the value its decoder returns. With output=True the table printed is the table returned and is the last thing printed; with output=False no table is printed.", "quantifier": "every Record state, both output settings", "why_tests_cant": "every record content and layout", "anchors": ["src/arinc424/record.py:Record.decode"]}
{"id": "C20", "title": "decode() is repeatable and history independent", "statement": "decode() does not change the Record, and its result or exception and its printed lines are the same no matter what was decoded before in the process, even though decoding an unknown path terminator adds entries to a process-wide table.", "quantifier": "every Record state and every history of earlier decodes in the process", "why_tests_cant": "all histories of a shared mutable table", "anchors": ["src/arinc424/record.py:Record.decode", "src/arinc424/decoder.py:LegTypeDesc", "src/arinc424/decoder.py:field_021"]}
{"id": "C21", "title": "The process-wide leg table only ever gains <UNKNOWN> entries", "statement": "After any history of decodes, looking up any path terminator in the leg-type table gives what the pristine table gives; documented codes are never lost or changed, and every added entry maps to '<UNKNOWN>'.", "quantifier": "every history of decodes of any records", "why_tests_cant": "inductive invariant over unbounded histories", "anchors": ["src/arinc424/decoder.py:LegTypeDesc", "src/arinc424/decoder.py:field_021"]}
{"id": "C22", "title": "Record objects do not interfere", "statement": "In any interleaving of read and decode calls on any number of Record objects, each object's results, printed lines and final state are the same as if only its own calls had been made.", "quantifier": "every interleaving of calls over any number of objects", "why_tests_cant": "all interleavings", "anchors": ["src/arinc424/record.py:Record", "src/arinc424/decoder.py:LegTypeDesc", "src/arinc424/record.py:records"]}
{"id": "C23", "title": "A decoding error prints no table", "statement": "If decode() raises, no table was printed by that call, and the exception is the one raised by the first field, in order, whose decoder fails.", "quantifier": "every Record state", "why_tests_cant": "all record contents", "anchors": ["src/arinc424/record.py:Record.decode"]}
{"id": "C24", "title": "decode never fails with IndexError or AttributeError on a record that was read", "statement": "On any Record reached by any sequence of reads, decode() either returns a table or raises ValueError or exits; decoders that index into their value are never given a too-short value, and every decoder named by a layout exists.", "quantifier": "every history of reads, then decode", "why_tests_cant": "all layouts and contents", "anchors": ["src/arinc424/record.py:Record.decode", "src/arinc424/decoder.py:field_010", "src/arinc424/decoder.py:field_017", "src/arinc424/decoder.py:field_042", "src/arinc424/decoder.py:field_082", "src/arinc424/decoder.py:field_118", "src/arinc424/decoder.py:field_178", "src/arinc424/decoder.py:field_196"]}
{"id": "C25", "title": "parse() outcome", "statement": "parse(line) returns True iff a fresh Record accepts the line and all its fields decode; it returns False iff the fresh Record's read returns False; otherwise it raises. A shape- or section-rejected line prints nothing.", "quantifier": "every string", "why_tests_cant": "all strings", "anchors": ["src/arinc424/__init__.py:parse"]}
{"id": "C26", "title": "parse() fails exactly on out-of-domain field values", "statement": "parse(line) raises iff read raises or some field value of the accepted record is outside the documented domain of its field (e.g. Record Type not S/T, IFR capability not Y/N, turn direction not R/L/E/blank, speed limit neither numeric nor blank, ...).", "quantifier": "every string", "why_tests_cant": "needs every combination of field contents", "anchors": ["src/arinc424/__init__.py:parse", "src/arinc424/decoder.py:field_002"]}
{"id": "C27", "title": "Record types that can always be displayed", "statement": "For the sections AS, EP, HK, HS, PB, PI, PK, PS, 'R ', RA, TC, UC, UF and UR, every accepted ASCII line without leading whitespace is parsed to True: decoding never raises, whatever the columns contain. For no other section is that so.", "quantifier": "every accepted ASCII line of these sections", "why_tests_cant": "all contents of 132 columns", "anchors": ["src/arinc424/__init__.py:parse", "src/arinc424/decoder.py"]}
{"id": "C28", "title": "Only a bad navaid frequency can terminate the interpreter", "statement": "A library call must not end the process. parse exits (SystemExit) only if the record is a D, DB, PN or PM record whose frequency columns are neither blank nor numeric; for every other line it never does. (The unconditional claim is refuted.)", "quantifier": "every string", "why_tests_cant": "absence of exit over all inputs", "anchors": ["src/arinc424/decoder.py:field_034", "src/arinc424/__init__.py:parse"]}
{"id": "C29", "title": "read_file parses every line in order", "statement": "read_file(path) has exactly the effects of calling parse on each line of the file in order, stopping only at the first exception; the effect of a file that is the concatenation of two newline-separated texts is the effect of the first followed by that of the second.", "quantifier": "every file content", "why_tests_cant": "unbounded files", "anchors": ["src/arinc424/__init__.py:read_file"]}
{"id": "C30", "title": "Line-ending convention is irrelevant", "statement": "A text file has the same effects under read_file and search whether its lines end in LF, CRLF or CR.", "quantifier": "every file content", "why_tests_cant": "unbounded files", "anchors": ["src/arinc424/__init__.py:read_file", "src/arinc424/__init__.py:search"]}
{"id": "C31", "title": "Final newline, blank lines and non-record lines are irrelevant", "statement": "Adding or removing a final newline, or inserting lines that are not well-shaped records of a supported section anywhere, does not change the effects of read_file.", "quantifier": "every file content and every such edit", "why_tests_cant": "unbounded files", "anchors": ["src/arinc424/__init__.py:read_file", "src/arinc424/record.py:Record.validate"]}
{"id": "C32", "title": "A malformed record does not prevent later records from being processed", "statement": "read_file processes every line of the file. (Refuted: the first record that raises aborts the rest. Proved: everything before the first raising line is processed as if the file ended there, and if no line raises, all lines are processed.)", "quantifier": "every file content", "why_tests_cant": "unbounded files, arbitrary position of the bad line", "anchors": ["src/arinc424/__init__.py:read_file"]}
{"id": "C33", "title": "search prints exactly the matching records", "statement": "search(file, filters) on a file whose lines all read without raising prints, in file order, the stripped text of exactly those lines that read accepts and that contain the filter string (or every string of a filter list), and then one summary with the number of records printed.", "quantifier": "every file content, every filter string or list", "why_tests_cant": "unbounded files and filters", "anchors": ["src/arinc424/__init__.py:search"]}
{"id": "C34", "title": "Filter lists are conjunctions", "statement": "The records search prints for a filter list depend only on the set of filters; adding filters can only remove records; a one-element list prints the same records as the bare string; the empty list and the empty string print every accepted record.", "quantifier": "every file content and filter lists", "why_tests_cant": "relational claims over unbounded lists", "anchors": ["src/arinc424/__init__.py:search"]}
{"id": "C35", "title": "search never decodes", "statement": "search succeeds on every file whose lines read without raising, even if decoding them would raise or exit; it raises iff reading some line raises, and then the records before that line have been printed and no summary is.", "quantifier": "every file content and filter", "why_tests_cant": "all file contents", "anchors": ["src/arinc424/__init__.py:search"]}
{"id": "C36", "title": "read_folder reads every file of the folder", "statement": "read_folder(path) has exactly the effects of read_file on each directory entry in scan order; if no file raises, the records displayed are, up to order of files, independent of scan order.", "quantifier": "every folder listing and file contents, every scan order", "why_tests_cant": "scan order is up to the operating system", "anchors": ["src/arinc424/__init__.py:read_folder"]}
{"id": "C37", "title": "json() is a faithful JSON object of the fields", "statement": "json() returns a valid JSON object text that parses back to exactly the mapping from each field name to the raw value of the last field of that name, in order of first occurrence.", "quantifier": "every Record state with any field names and values, including quotes, backslashes, control and non-ASCII characters and unpaired surrogates (a high surrogate directly followed by a low one, which no decoded text contains, is read back as one character)", "why_tests_cant": "round trip over all strings", "anchors": ["src/arinc424/record.py:Record.json"]}
{"id": "C38", "title": "Both json styles denote the same object", "statement": "json(single_line=False) parses to the same name-to-value mapping as json(single_line=True), with keys sorted.", "quantifier": "every Record state", "why_tests_cant": "round trip over all strings", "anchors": ["src/arinc424/record.py:Record.json"]}
{"id": "C39", "title": "json() does not lose fields", "statement": "Every field of a record that was read appears in its JSON with its own value. (False for layouts that repeat a field name, e.g. 'R ', RA, ET, TG, PR continuation: the earlier value is lost; true for all other layouts.)", "quantifier": "every accepted line", "why_tests_cant": "all layouts and contents", "anchors": ["src/arinc424/record.py:Record.json", "src/arinc424/definitions/CompanyRoute.py:CompanyRoute.read", "src/arinc424/definitions/Alternate.py:Alternate.read"]}
{"id": "C40", "title": "json() output is one line of printable ASCII", "statement": "json() in single-line mode contains only printable ASCII characters, hence no newline, whatever the record contains; the multi-line form adds only newlines.", "quantifier": "every Record state", "why_tests_cant": "all Unicode contents", "anchors": ["src/arinc424/record.py:Record.json"]}
{"id": "C41", "title": "Altitudes and elevations keep their value", "statement": "For every altitude/elevation/position field, an all-digit value that is not all zeros decodes to its number in canonical decimal followed by ' ft', and a non-numeric value is shown unchanged. (The claim without the non-zero condition is refuted: zero decodes to ' ft'.)", "quantifier": "every string of digits of any length, every decoder of the family", "why_tests_cant": "unbounded digit strings", "anchors": ["src/arinc424/decoder.py:field_030", "src/arinc424/decoder.py:field_029", "src/arinc424/decoder.py:field_048", "src/arinc424/decoder.py:field_050", "src/arinc424/decoder.py:field_053", "src/arinc424/decoder.py:field_073", "src/arinc424/decoder.py:field_086", "src/arinc424/decoder.py:field_092", "src/arinc424/decoder.py:field_123", "src/arinc424/decoder.py:field_127", "src/arinc424/decoder.py:field_147", "src/arinc424/decoder.py:field_161", "src/arinc424/decoder.py:field_184", "src/arinc424/decoder.py:field_209", "src/arinc424/decoder.py:field_240"]}
{"id": "C42", "title": "Longest runway is in feet", "statement": "A digit string n (not all zeros) in the Longest Runway field decodes to 100*n in canonical decimal followed by ' ft'.", "quantifier": "every string of digits", "why_tests_cant": "unbounded digit strings", "anchors": ["src/arinc424/decoder.py:field_054"]}
{"id": "C43", "title": "Cycle dates are placed in 1951-2050", "statement": "A four-digit cycle date yyrr decodes to 'YYYY, Release rr' where YYYY is the unique year in 1951..2050 congruent to yy modulo 100; distinct cycle dates decode differently. Hence decoding the cycle date of any accepted ASCII record never raises.", "quantifier": "every four-digit string / every accepted ASCII record", "why_tests_cant": "full domain plus unbounded records", "anchors": ["src/arinc424/decoder.py:field_032"]}
{"id": "C44", "title": "Frequencies are exact", "statement": "A frequency of up to 15 digits n decodes to the exact decimal n/100 with two decimals; the binary floating point division and formatting introduce no error.", "quantifier": "every digit string of length 1 to 15", "why_tests_cant": "ten to the fifteenth inputs through floating point", "anchors": ["src/arinc424/decoder.py:field_034", "src/arinc424/decoder.py:field_045", "src/arinc424/decoder.py:field_103"]}
{"id": "C45", "title": "Courses and distances are exact", "statement": "A digit string of up to 4 digits n in a course or distance field decodes to the exact decimal n/10 with one decimal (suffix ' nm', or ' min' after a leading T for distances); a course with a trailing T is shown unchanged.", "quantifier": "every digit string of length 1 to 4", "why_tests_cant": "floating point rounding on every input", "anchors": ["src/arinc424/decoder.py:field_026", "src/arinc424/decoder.py:field_027"]}
{"id": "C46", "title": "Magnetic variation keeps direction and magnitude", "statement": "A direction letter followed by digits decodes to the number, zero-padded to at least three digits, a blank, and the letter; the original number and letter can be recovered. A blank field is shown unchanged.", "quantifier": "every letter and every digit string", "why_tests_cant": "unbounded digit strings", "anchors": ["src/arinc424/decoder.py:field_039"]}
{"id": "C47", "title": "Time zones are rendered as GMT offsets", "statement": "A time zone letter with digits decodes to 'GMT +h:mm' or 'GMT -h:mm' with a single sign. (True for M..Z; refuted for A..L, which render a double minus such as 'GMT --12:00'; a lower-case or non-ASCII letter raises.)", "quantifier": "every letter and digit string", "why_tests_cant": "all letters and minutes", "anchors": ["src/arinc424/decoder.py:field_178"]}
{"id": "C48", "title": "Leg times never fail", "statement": "The leg time decoder never raises: blank gives no value, two digits m t give 'mm (6t)s' with seconds below 60, anything else gives an 'Invalid Value' text naming the value and prints one diagnostic.", "quantifier": "every string", "why_tests_cant": "all strings", "anchors": ["src/arinc424/decoder.py:field_065"]}
{"id": "C49", "title": "Code tables are total", "statement": "The table-driven decoders (area code, section, route type, comm type, frequency units, service indicator, H24, modulation, signal emission, leg type) never raise on any value in their domain, return a documented description exactly on documented codes and '<UNKNOWN>' on every other code; the 'BAD VALUE' texts are unreachable.", "quantifier": "every string, every record", "why_tests_cant": "all strings", "anchors": ["src/arinc424/decoder.py:field_003", "src/arinc424/decoder.py:field_004", "src/arinc424/decoder.py:field_007", "src/arinc424/decoder.py:field_101", "src/arinc424/decoder.py:field_104", "src/arinc424/decoder.py:field_106", "src/arinc424/decoder.py:field_181", "src/arinc424/decoder.py:field_198", "src/arinc424/decoder.py:field_199"]}
{"id": "C50", "title": "Every supported section has its own name", "statement": "Every section code read can accept decodes to a description other than '<UNKNOWN>', and two different documented section codes never share a description.", "quantifier": "every section code, every accepted record", "why_tests_cant": "pairs of codes; all accepted records", "anchors": ["src/arinc424/decoder.py:field_004", "src/arinc424/record.py:records"]}
{"id": "C51", "title": "The displayed Section Code is the record's section", "statement": "For an accepted line without leading whitespace the 'Section Code' field equals the ident the record was dispatched on. (Refuted for PN terminal NDBs, whose field is always cut from columns 5-6; holds for every line dispatched the usual way by any other section.)", "quantifier": "every accepted line", "why_tests_cant": "all contents and all sections", "anchors": ["src/arinc424/record.py:Record.read", "src/arinc424/definitions/NDBNavaid.py:NDBNavaid.read_primary"]}
{"id": "C52", "title": "The displayed continuation number is the one that governs", "statement": "The 'Continuation Record No' (or 'Continuation Number') field of an accepted record shows the column that decided primary versus continuation. (Refuted for PT GLS records and PK/HK TAA continuation records.)", "quantifier": "every accepted line of a section with a continuation column", "why_tests_cant": "all contents and all layouts", "anchors": ["src/arinc424/definitions/GLS.py:GLS.read_primary", "src/arinc424/definitions/TAA.py:TAA.read_cont", "src/arinc424/record.py:Record.read"]}
{"id": "C53", "title": "The displayed application type is the one that governs", "statement": "The 'Application Type' field of an accepted continuation record shows the column the layout was chosen on. (Refuted for EP holding patterns; TAA uses 'Application Notes'.)", "quantifier": "every accepted continuation line", "why_tests_cant": "all contents and all layouts", "anchors": ["src/arinc424/definitions/HoldingPattern.py:HoldingPattern.read_cont", "src/arinc424/record.py:Record.read"]}
{"id": "C54", "title": "Pass-through fields are shown verbatim", "statement": "For the fields the library does not interpret (identifiers, coordinates, names, notes, ...) decoding returns the raw value unchanged, prints nothing and never raises.", "quantifier": "every string, every pass-through decoder, every record", "why_tests_cant": "all strings for about two hundred decoders", "anchors": ["src/arinc424/decoder.py:field_006", "src/arinc424/decoder.py:field_036"]}
{"id": "C55", "title": "Only route type and bad-frequency diagnostics look at the record", "statement": "The decoded value of a field depends only on the field's own value, except Route Type, which also depends on the section code; the only other use of the record is the text of the bad-frequency diagnostic.", "quantifier": "every decoder, every value, every pair of records", "why_tests_cant": "relates pairs of records", "anchors": ["src/arinc424/decoder.py:field_007", "src/arinc424/decoder.py:field_034"]}
{"id": "C56", "title": "Waypoint description codes decode position by position", "statement": "A waypoint description of at least four characters never raises, and decodes to the newline-separated descriptions of its documented positions, in order, each position contributing independently of the others.", "quantifier": "every string of length at least four", "why_tests_cant": "all four-character strings over Unicode", "anchors": ["src/arinc424/decoder.py:field_017"]}
{"id": "C57", "title": "Continuation records share the key columns of their primary", "statement": "Within a section, the fields a continuation layout lists before its continuation number are read from the same columns under the same name as in the primary layout, so a continuation record whose key columns equal its primary's shows equal key fields. (Refuted for PK/HK TAA and for PA flight planning continuations; proved for the rest.)", "quantifier": "every pair of primary and continuation lines of a section", "why_tests_cant": "pairs of arbitrary records", "anchors": ["src/arinc424/definitions/*.py", "src/arinc424/definitions/TAA.py:TAA.read_cont"]}
{"id": "C58", "title": "Columns are not shown twice", "statement": "In an accepted record no two fields show the same column. (Refuted for listed layouts, e.g. 'R ', UC, EP continuation; proved for all others.)", "quantifier": "every accepted line, every pair of fields", "why_tests_cant": "all layouts, all pairs", "anchors": ["src/arinc424/definitions/*.py"]}
{"id": "C59", "title": "The section registry never changes", "statement": "No call to read ever adds, removes or changes a supported section, although the registry is a defaultdict that would insert on lookup of a missing key.", "quantifier": "every history of reads", "why_tests_cant": "all histories", "anchors": ["src/arinc424/record.py:records", "src/arinc424/record.py:Record.read"]}
{"id": "C60", "title": "Values returned as floats are the decimal they stand for", "statement": "The decoders that return a float (wind, glide slope and threshold crossing figures in tenths) return, for a digit string v of 2 to 15 digits, exactly float(v[:-1] + '.' + v[-1]); printed with one decimal it is the exact tenth.", "quantifier": "every digit string of 2 to 15 digits, the three decoders", "why_tests_cant": "binary rounding over 10^15 values", "anchors": ["src/arinc424/decoder.py:field_062", "src/arinc424/decoder.py:field_135", "src/arinc424/decoder.py:field_269"]}
{"id": "C61", "title": "Position-coded values decode by the position that decides", "statement": "Decoders whose value is several one-character codes side by side look at the positions in their documented precedence: waypoint type, name format, boundary via, waypoint usage; approach identifiers split into type and runway; sequence numbers are labelled by their length; continuation numbers tell primary from continuation. What follows the documented positions changes nothing but what is echoed.", "quantifier": "every value of at least the documented length", "why_tests_cant": "all character combinations", "anchors": ["src/arinc424/decoder.py:field_042", "src/arinc424/decoder.py:field_196", "src/arinc424/decoder.py:field_118", "src/arinc424/decoder.py:field_082", "src/arinc424/decoder.py:field_010", "src/arinc424/decoder.py:field_012", "src/arinc424/decoder.py:field_016"]}
{"id": "C62", "title": "Fields of one type have one width", "statement": "Two fields with the same decoder, in any two accepted records of any sections, have values of the same length. (Refuted for 23 listed types, proved for all others.)", "quantifier": "every pair of accepted lines and every pair of their fields", "why_tests_cant": "pairs of arbitrary records", "anchors": ["src/arinc424/definitions/*.py"]}
{"id": "C63", "title": "Fields are listed in the order of their columns", "statement": "The values of the fields of an accepted record, one after the other (without the section code, which some sections split over columns 5 and 13), form a subsequence of the line: nothing shown is out of order or repeated. (Refuted for the kinds with overlapping fields.)", "quantifier": "every accepted line", "why_tests_cant": "all layouts, all lines", "anchors": ["src/arinc424/definitions/*.py"]}
{"id": "C64", "title": "Checked text fields are shown trimmed or refused", "statement": "Fields that must be text of a certain form show it when they have that form and refuse it otherwise: route identifiers are shown as they are if they consist of letters and digits and otherwise raise (5.8) or give no value (5.9); the trimmed fields show their text without the blanks around it, show nothing when blank and raise on anything else; names are trimmed whatever they are; speed limits show digits with their unit, leave blanks and raise on the rest; frequencies and tenths that are not numbers show BAD VALUE.", "quantifier": "every value of these field types", "why_tests_cant": "all texts", "anchors": ["src/arinc424/decoder.py:field_008", "src/arinc424/decoder.py:field_009", "src/arinc424/decoder.py:field_023", "src/arinc424/decoder.py:field_043", "src/arinc424/decoder.py:field_072", "src/arinc424/decoder.py:field_045", "src/arinc424/decoder.py:field_103"]}
{"id": "C65", "title": "Decoded values are text, with five exceptions", "statement": "The decoded value of a field is text; only the three field types in tenths can give a number (exactly when the raw value converts with float() and is numeric text, or for the third not blank) and only SID/STAR/approach route identifiers and leg times can give no value (exactly when not alphanumeric, resp. blank).", "quantifier": "every field type, every raw value, every record and history", "why_tests_cant": "all raw values of all types", "anchors": ["src/arinc424/decoder.py:field_062", "src/arinc424/decoder.py:field_135", "src/arinc424/decoder.py:field_269", "src/arinc424/decoder.py:field_009", "src/arinc424/decoder.py:field_065", "src/arinc424/decoder.py:Field.decode"]}
{"id": "C66", "title": "Reading the same line again changes nothing", "statement": "read(line) directly after read(line) on the same object returns, prints and raises the same and leaves the object in the same state, whatever the object held before, also when read refuses the line or raises.", "quantifier": "every state of a Record, every line", "why_tests_cant": "all prior states and lines", "anchors": ["src/arinc424/record.py:Record.read"]}
{"id": "C67", "title": "Searching what search printed finds the same", "statement": "If the lines search printed are written to a file, searching that file with the same filters gives the same result and prints the same. (Refuted for records with blanks in front.)", "quantifier": "every file without invalid continuation numbers on which read does not raise, every filter", "why_tests_cant": "all files, all filters", "anchors": ["src/arinc424/__init__.py:search"]}
{"id": "C68", "title": "read_file and search see the same records", "statement": "If read_file returns normally, then search (with a filter every text contains) does too, and the tables read_file prints are, one by one and in order, those of the records search finds; the count search reports is their number.", "quantifier": "every text file, every history", "why_tests_cant": "all files", "anchors": ["src/arinc424/__init__.py:read_file", "src/arinc424/__init__.py:search"]}
{"id": "C69", "title": "Table and JSON agree", "statement": "The table decode returns and the object json returns show the same names and the same raw values (in the single-line form in the same order). (Refuted for records that repeat a field name.)", "quantifier": "every record whose field names are distinct and whose values are proper text", "why_tests_cant": "all records", "anchors": ["src/arinc424/record.py:Record.decode", "src/arinc424/record.py:Record.json"]}
{"id": "C70", "title": "Which blank fields are refused", "statement": "A field of an accepted record that is all blanks decodes without error, except route identifiers (ER, ET, EU, TG) and the IFR capability (PA, HA), which raise ValueError; the cycle date is never blank, and the record type only if the line has blanks in front; then it raises too.", "quantifier": "every accepted line, every field", "why_tests_cant": "all layouts, all lines", "anchors": ["src/arinc424/decoder.py:field_008", "src/arinc424/decoder.py:field_108", "src/arinc424/decoder.py:field_002", "src/arinc424/decoder.py:field_032"]}
{"id": "C71", "title": "A description tells which code it stands for", "statement": "Of the values a coded field can have, a documented one is told from every other value of that width by what is shown: no two show the same text, and none shows what an undocumented value shows. Two pairs of synonyms are the only exceptions: turn direction E and blank, communication types TCA and TMA.", "quantifier": "every coded field type, every pair of values of the same width", "why_tests_cant": "all values, documented or not", "anchors": ["src/arinc424/decoder.py:field_020", "src/arinc424/decoder.py:field_101", "src/arinc424/decoder.py:field_003", "src/arinc424/decoder.py:field_007"]}
{"id": "C72", "title": "Every kind of record has the fields, columns and field types of the standard", "statement": "An accepted record of each of the kinds of records (section, primary or continuation, application type) has exactly the fields listed for that kind, in order; each shows the columns and is decoded as the field type listed for it. (Refuted for the fields marked in the list, such as the class of a VHF navaid, which is cut after two of its five columns.)", "quantifier": "every accepted line of every kind, every field", "why_tests_cant": "all lines; 2021 fields of 96 kinds of records", "anchors": ["src/arinc424/definitions/VHFNavaid.py:VHFNavaid.read_primary", "src/arinc424/definitions/Airport.py:Airport.read_primary", "src/arinc424/definitions/CompanyRoute.py:CompanyRoute.read", "src/arinc424/record.py:Record.read"]}
{"id": "C73", "title": "Every kind of record can be read", "statement": "For every section, every application type it documents, and for primary and continuation records alike, there is a line that read accepts as a record of that kind; for sections with a continuation number a new Record does it.", "quantifier": "every kind of record", "why_tests_cant": "all kinds; each needs a line that meets every condition at once", "anchors": ["src/arinc424/record.py:Record.read", "src/arinc424/record.py:records"]}
{"id": "C74", "title": "Every raw value has a specified meaning, or a complaint", "statement": "What is shown for the raw value of a field is determined by its field type, the value and (for route types) the section, as written down in one specification: codes have their descriptions, numbers their value with unit and decimals, names and identifiers their text (with the deviations from the standard found under C41, C42 and C47). A value of ASCII characters for which the specification has no meaning makes decode raise, or makes it print a report, or contains a number written in an unusual way that float() or int() accepts; every other value is decoded silently.", "quantifier": "every field type, every value of ASCII characters of the width the type has in records, every section and history", "why_tests_cant": "all raw values of all types", "anchors": ["src/arinc424/decoder.py:field_026", "src/arinc424/decoder.py:field_034", "src/arinc424/decoder.py:field_039", "src/arinc424/decoder.py:field_101", "src/arinc424/decoder.py:Field.decode"]}
{"id": "C75", "title": "Which lines are accepted, and what is read from them", "statement": "read returns True exactly if the line, without whitespace around it, has 132 columns, starts with S or T, ends with nine numeric characters, names a supported section, has an alphanumeric continuation number (where there is one), and fields are listed for its section, kind and application type. The object then holds the text, the section, whether it is primary, and exactly the listed fields with the listed columns, whatever it held before, and nothing is printed.", "quantifier": "every state of a Record, every line", "why_tests_cant": "all lines and prior states", "anchors": ["src/arinc424/record.py:Record.read", "src/arinc424/record.py:Record.validate", "src/arinc424/definitions/*.py"]}
{"id": "C76", "title": "From the text of a line to the table", "statement": "For a line of ASCII characters that is a record all of whose fields have a meaning, parse returns True and prints one table and nothing else: a row for each field listed for that kind of record, in order, with its name, its columns between quotes and its meaning. read_file prints these tables for the records of a text, in order, and nothing else. Conversely, if parse prints a table and nothing else for a record (without numbers written in unusual ways) then all its fields have a meaning.", "quantifier": "every line of ASCII characters, every text file of such lines, every history", "why_tests_cant": "all lines and files", "anchors": ["src/arinc424/__init__.py:parse", "src/arinc424/__init__.py:read_file", "src/arinc424/record.py:Record.read", "src/arinc424/record.py:Record.decode"]}
{"id": "C77", "title": "What becomes of a line: six cases", "statement": "Every line falls in exactly one of six cases, told by its text (and, for sections without a continuation number, by the number the object read before): not a record; of no supported section; with a bad continuation number; of a type that is refused with ValueError; of a type without fields; a record with listed fields. The case determines what read returns or raises, what it prints, and what text, section and fields the object holds afterwards.", "quantifier": "every line, every state of a Record", "why_tests_cant": "all lines and prior states", "anchors": ["src/arinc424/record.py:Record.read", "src/arinc424/record.py:Record.validate", "src/arinc424/definitions/*.py"]}
{"id": "C78", "title": "What becomes of every field value", "statement": "Every value of ASCII characters (numbers written in unusual ways aside) that is as wide as its field is shown with its specified meaning and without a message; or it has none, and then leg times and boundary vias are shown as invalid with one message, a navaid frequency ends the program with two messages, and everything else raises ValueError without a message.", "quantifier": "every field type, every value of ASCII characters, every record and history", "why_tests_cant": "all raw values of all types", "anchors": ["src/arinc424/decoder.py:field_034", "src/arinc424/decoder.py:field_065", "src/arinc424/decoder.py:field_118", "src/arinc424/decoder.py:Field.decode"]}
{"id": "C79", "title": "parse, read_file and read_folder do exactly what is specified", "statement": "For lines of ASCII characters (without numbers written in unusual ways), what parse returns or raises and everything it prints is what the specification derives from the text: the case of the line, then the verdict on each field in order up to the first exception, then the table. read_file does this for the lines of a text in order up to the first exception, read_folder for the files.", "quantifier": "every line, text and folder of ASCII lines, output on or off, every history", "why_tests_cant": "all lines, files and folders", "anchors": ["src/arinc424/__init__.py:parse", "src/arinc424/__init__.py:read_file", "src/arinc424/__init__.py:read_folder", "src/arinc424/record.py:Record.decode"]}
{"id": "C80", "title": "search does exactly what is specified", "statement": "What search raises and everything it prints, including messages and the closing summary, is what the specification derives from the lines of the text: matching records are printed and counted, other records and lines are skipped, bad continuation numbers are reported, a refused record ends the search with ValueError.", "quantifier": "every text, every filter", "why_tests_cant": "all files and filters", "anchors": ["src/arinc424/__init__.py:search", "src/arinc424/record.py:Record.read"]}
{"id": "C81", "title": "From the text of a line to JSON", "statement": "After reading a line in which no high surrogate is directly followed by a low one, json() returns an object whose names are those of the fields listed for the kind of record, in order, each with the columns of the last field of that name; if no name is repeated it lists all fields. The multi-line form denotes the same, sorted by name.", "quantifier": "every accepted line without an adjacent high and low surrogate, every prior state", "why_tests_cant": "all lines", "anchors": ["src/arinc424/record.py:Record.json", "src/arinc424/record.py:Record.read"]}
{"id": "C82", "title": "What an object tells after any sequence of reads", "statement": "After any sequence of reads a Record holds the text of the last line that was a record, the section of the last one of a supported section, the fields of the last one whose fields could be told, and primary() and hasCont() report the last continuation number that was read. As long as no line of a supported section was read, primary() and hasCont() are False and there are no fields.", "quantifier": "every sequence of lines read by one object", "why_tests_cant": "all histories", "anchors": ["src/arinc424/record.py:Record.read", "src/arinc424/record.py:Record.primary", "src/arinc424/record.py:Record.hasCont"]}
{"id": "C83", "title": "Threads do not disturb each other", "statement": "When several threads use the library, each on Record objects of its own, each gets the results and prints the output, in order, that its calls give when no other thread runs, whatever the interleaving of their accesses to the module's tables and to standard output. At every moment, so also when the process is killed, what a thread has printed is a first part of that output. No thread has to wait for another. The module's tables keep their documented contents.", "quantifier": "any number of threads, any sequence of calls in each, every interleaving, every moment", "why_tests_cant": "the interleavings of two threads cannot be enumerated by tests, and the tables are changed by look-ups (defaultdict)", "anchors": ["src/arinc424/decoder.py:LegTypeDesc", "src/arinc424/decoder.py:field_021", "src/arinc424/record.py:records", "src/arinc424/record.py:Record.read", "src/arinc424/__init__.py:parse"]}
{"id": "C84", "title": "The texts in the table", "statement": "The table shown for a record has, for every field, a row with the name, the columns between quotes and the text of the specified meaning. In particular the fields whose decoder returns a Python float (courses of holding patterns, cruising tables and helicopter procedures) show exactly the number of tenths in the record with one decimal, though most such numbers are not binary floating-point numbers.", "quantifier": "every record of ASCII characters (numbers written in unusual ways aside); for the floats every numeral of up to 15 digits", "why_tests_cant": "all numerals; rounding of binary floating point", "anchors": ["src/arinc424/decoder.py:field_062", "src/arinc424/decoder.py:field_135", "src/arinc424/decoder.py:field_269", "src/arinc424/record.py:Record.decode"]}
{"id": "C85", "title": "What counts as a number", "statement": "A number in a field may be written in every way that the Python documentation describes for int and float: with white space around it, a sign, digits of any script, single underscores between digits, and for float a point, an exponent, inf, infinity or nan in any case; and in no other way. A text denotes one number only. A threshold crossing height or a distance or holding time written so is shown as that number divided by ten; anything else that is not blank raises ValueError.", "quantifier": "every text of any Unicode characters", "why_tests_cant": "all texts; the ways to write a number cannot be enumerated", "anchors": ["src/arinc424/decoder.py:field_269", "src/arinc424/decoder.py:field_027", "src/arinc424/decoder.py:field_026", "src/arinc424/decoder.py:field_032", "src/arinc424/decoder.py:field_039"]}
{"id": "C86", "title": "Any characters at all", "statement": "For lines of any Unicode characters and numbers written in any way, what parse returns or raises and everything it prints is what a specification without hypotheses derives from the text; and the same for read_file with any text and for read_folder with any folder. For ASCII lines with numbers in digits it agrees with the simpler specification of C79.", "quantifier": "every line, text and folder whatsoever, output on or off, every history", "why_tests_cant": "all lines, all Unicode characters", "anchors": ["src/arinc424/__init__.py:parse", "src/arinc424/__init__.py:read_file", "src/arinc424/__init__.py:read_folder", "src/arinc424/record.py:Record.decode"]}
{"id": "C87", "title": "The text of any float", "statement": "str of any double is the shortest decimal that float reads as that double: no decimal with fewer digits is rounded to it, of those with as many it is the nearest, it does not end in a superfluous zero, it is written with a point and without exponent from 0.0001 to 10^16 and with an exponent of at least two digits otherwise. It has at most 17 digits and 24 characters. float(str(x)) is x, and different doubles have different texts. In every table printed by parse, read_file and read_folder, for any text, the cells hold the name, the columns between quotes, and the decoded value: a text as it is, None, or a float written so.", "quantifier": "every double (2^64 bit patterns), every line, text and folder whatsoever", "why_tests_cant": "all doubles; rounding of binary floating point in both directions", "anchors": ["src/arinc424/decoder.py:field_062", "src/arinc424/decoder.py:field_135", "src/arinc424/decoder.py:field_269", "src/arinc424/record.py:Record.decode"]}
{"id": "C88", "title": "No characters are invented", "statement": "Every character that parse, read_file or read_folder prints, in a message or in the cells of a table, is a printable ASCII character, a line end, or occurs in the line, or in one of the files, that was read; for search it may also occur in the filter. So of an ASCII file only ASCII characters are printed.", "quantifier": "every line, text, folder and filter whatsoever, output on or off, every history", "why_tests_cant": "all lines, all Unicode characters", "anchors": ["src/arinc424/__init__.py:parse", "src/arinc424/__init__.py:read_file", "src/arinc424/__init__.py:read_folder", "src/arinc424/__init__.py:search", "src/arinc424/record.py:Record.decode"]}
{"id": "C89", "title": "Files of any bytes", "statement": "On a system whose default encoding is UTF-8, read_file, search and read_folder treat a file as the text whose UTF-8 encoding (Unicode standard, table 3-6) its bytes are, and ASCII bytes as these characters. If the bytes are no UTF-8, if only a single letter anywhere in the file is in Latin-1 or the file ends within a character, UnicodeDecodeError (a ValueError) is raised and nothing of the file is shown, not even the lines before. Everything printed by read_file can be written in UTF-8.", "quantifier": "every sequence of bytes, every folder of such files, output on or off, every history", "why_tests_cant": "all byte sequences", "anchors": ["src/arinc424/__init__.py:read_file", "src/arinc424/__init__.py:read_folder", "src/arinc424/__init__.py:search"]}
{"id": "C90", "title": "A byte-order mark does not matter", "statement": "A UTF-8 file that begins with a byte-order mark, as some editors write it, is read and searched like the file without it.", "quantifier": "every text in UTF-8", "why_tests_cant": "all files", "anchors": ["src/arinc424/__init__.py:read_file", "src/arinc424/__init__.py:search", "src/arinc424/record.py:Record.validate"]}
{"id": "C91", "title": "Interrupted calls", "statement": "If a call is ended from outside at any moment (KeyboardInterrupt, or print failing because standard output is closed or full), what it has printed is a first part of what it prints otherwise, and every other call in the process has the outcome it has if the interrupted ones are not made; only a Record whose own read was interrupted is excepted, until it is created anew. parse, read_file, read_folder and search do afterwards what they do in a new process, so an interrupted call can simply be made again. The module's tables are not damaged.", "quantifier": "every sequence of calls, any of them interrupted, every point of interruption, anything an interrupted read may leave in its object", "why_tests_cant": "all histories and all points of interruption", "anchors": ["src/arinc424/decoder.py:LegTypeDesc", "src/arinc424/decoder.py:field_021", "src/arinc424/decoder.py:field_065", "src/arinc424/record.py:Record.read", "src/arinc424/__init__.py:parse", "src/arinc424/__init__.py:read_file", "src/arinc424/__init__.py:read_folder", "src/arinc424/__init__.py:search"]}
{"id": "C92", "title": "Filters of any type", "statement": "search(file, filters) prints the records that contain the given substrings, in whatever collection they are given. (True of a string and of a list of strings, where every record printed contains them and a search that comes to its end has printed all that do. A tuple, a set or any other object is ignored: every record is printed, and counted in the summary as containing it. A list with an element that is no string raises TypeError at the first record that contains the strings before it. What happens in each case is specified and proved for every text.)", "quantifier": "every text, every filters argument: string, list, other collection, elements of any type", "why_tests_cant": "all texts and all arguments", "anchors": ["src/arinc424/__init__.py:search"]}
{"id": "C93", "title": "Files and directories are closed", "statement": "Every file and directory that read_file, search or read_folder opens is closed when the call ends, whether it returns, raises or is interrupted at any point; at most one file is open at a time; read_folder opens each entry once, in order. (The directory that read_folder scans remains open whenever an exception leaves the call: os.scandir is not closed.)", "quantifier": "every file and folder, every point of interruption, every history", "why_tests_cant": "all points of interruption and all exceptions", "anchors": ["src/arinc424/__init__.py:read_file", "src/arinc424/__init__.py:read_folder", "src/arinc424/__init__.py:search"]}
{"id": "C94", "title": "How a file is delivered does not matter", "statement": "What read_file, search and read_folder do depends only on the bytes of a file, not on the pieces in which the operating system delivers them, even where a character of several bytes, a CR LF or a line is divided between pieces (a pipe, a network file system, block sizes). If reading fails after some pieces, OSError is raised and nothing of the file is shown; or UnicodeDecodeError, if the bytes so far cannot begin any UTF-8 text.", "quantifier": "every sequence of bytes, every division into pieces, every point of failure, every folder, every history", "why_tests_cant": "all divisions of all byte sequences", "anchors": ["src/arinc424/__init__.py:read_file", "src/arinc424/__init__.py:read_folder", "src/arinc424/__init__.py:search"]}
{"id": "C95", "title": "One object, several threads", "statement": "Several threads may use one Record object: read, decode and json behave as if the calls were made one after the other. (False if any thread calls read: a call may raise AttributeError, which read raises for no line otherwise, may cut a line into the fields of another section, or may leave the text of one record with the fields of another. True as long as nobody calls read, and if all read the same line; and records of one section with the same continuation number are all accepted. In general text, section and list of fields are each the old one or come as a whole from one line, and every call ends.)", "quantifier": "every object, every number of threads, all calls, every schedule of single attribute accesses", "why_tests_cant": "all schedules", "anchors": ["src/arinc424/record.py:Record.read", "src/arinc424/record.py:Record.decode", "src/arinc424/record.py:Record.json", "src/arinc424/record.py:Record.primary", "src/arinc424/record.py:Record.hasCont"]}
{"id": "C96", "title": "A file that is cut short", "statement": "If only a first part of a file is there (a broken download, a full disk, a file still being written), cut anywhere, what read_file prints for it is the first part of what it prints for the whole file, and search finds records of the whole file only: the line in which the file is cut is ignored without a message, unless only whitespace is missing. If the cut is within a character of several bytes, UnicodeDecodeError is raised and nothing is shown. (False of files with lines of more than 132 columns: the first 132 columns of such a line can be a record, which is shown if the file is cut there.)", "quantifier": "every file of any bytes in UTF-8, every byte at which it is cut, both values of output, all filters", "why_tests_cant": "all crash points and all files", "anchors": ["src/arinc424/__init__.py:read_file", "src/arinc424/__init__.py:search", "src/arinc424/record.py:Record.validate"]}
{"id": "C97", "title": "A file that changes while it is read", "statement": "A file that does not change while it is read, or is replaced as a whole, is shown as it was when it was opened. Of a file to which another program appends, all that was there when it was opened is shown, nothing is shown that is not in the file, and a record is shown only if all records before it are. (The last is false: if a read reaches the end of the file within a record and the rest is appended before the next read, the record is missing and later ones are shown. Of a file that is rewritten in place a record may be shown that was never in it.)", "quantifier": "every history of the file, every time and size of the reads the operating system makes", "why_tests_cant": "all schedules of reader and writer", "anchors": ["src/arinc424/__init__.py:read_file", "src/arinc424/__init__.py:search"]}
{"id": "C98", "title": "A folder that changes while it is read", "statement": "Whatever other programs create, remove or change in a folder while read_folder reads it, every file that is there all the time and does not change is shown exactly once, as read_file shows it. (False if a file is removed after it was listed and before it is opened: FileNotFoundError ends read_folder, and the files after it are not shown. True whenever read_folder returns.)", "quantifier": "every history of the folder, every listing that os.scandir may give of it, every time at which the files are opened", "why_tests_cant": "all schedules of reader and writers", "anchors": ["src/arinc424/__init__.py:read_folder"]}
{"id": "C99", "title": "The summary of a search", "statement": "The summary at the end of a search says on one line how many records were found and for which filters: the count can be read from it, a list of filters is written so that Python reads it back as the same list, and filters without quotes, backslashes and unprintable characters are shown as they are. (False of filters that are one string: a string can look like a list, so that two different searches give the same summary, and a string with a line feed is shown on two lines.)", "quantifier": "every file, every string and list of strings, every table of printable characters", "why_tests_cant": "all strings, all lists of strings", "anchors": ["src/arinc424/__init__.py:search"]}
{"id": "C100", "title": "Arguments of any type", "statement": "Flags are truth values, and arguments of a wrong type are refused without effects: a line that is not a string raises AttributeError (TypeError for bytes), prints nothing and leaves the object as it was; read_folder refuses a path it cannot join with TypeError before it opens a file; single_line counts as what bool() makes of it. (False of output: 1 counts as true, but only the object True itself turns the output on. With anything else the functions do exactly what they do with False.)", "quantifier": "every object passed as line, output, single_line or path, every record object, every file and folder, every history", "why_tests_cant": "all objects, all records", "anchors": ["src/arinc424/__init__.py:parse", "src/arinc424/__init__.py:read_file", "src/arinc424/__init__.py:read_folder", "src/arinc424/record.py:Record.validate", "src/arinc424/record.py:Record.decode", "src/arinc424/record.py:Record.json"]}
{"id": "C101", "title": "The encoding of the system", "statement": "The same file is shown the same on every system, whatever its default encoding. (True of files of ASCII, for UTF-8 and every code page that extends ASCII. False of others: on a system with a code page such as Windows-1252 every record of a UTF-8 file that has a character outside ASCII is ignored without a message, a line that is too short may be shown as a record, and if a byte is not defined in the code page nothing of the file is shown.)", "quantifier": "every file of any bytes, every code page, every folder, all filters, both values of output, every history", "why_tests_cant": "all files, all code pages", "anchors": ["src/arinc424/__init__.py:read_file", "src/arinc424/__init__.py:read_folder", "src/arinc424/__init__.py:search", "src/arinc424/record.py:Record.validate"]}
{"id": "C102", "title": "The version of Python does not matter for ASCII", "statement": "Every sequence of calls on ASCII texts gives the same results, prints the same and leaves the same state under every interpreter, whatever its Unicode database says of other characters; and so do texts whose characters two interpreters classify in the same way. Reading a line asks only about its last nine columns and its continuation number.", "quantifier": "all pairs of Unicode databases that agree with ASCII, all finite sequences of calls, all texts", "why_tests_cant": "It compares all versions of the interpreter on all inputs; a test runs one version.", "anchors": ["src/arinc424/record.py:Record.validate", "src/arinc424/record.py:Record.read", "src/arinc424/decoder.py:Field"]}
{"id": "C103", "title": "What is shown of a record tells which record it is", "statement": "Two different records are shown differently: from the fields of an accepted record, its section, whether it is primary, and its application type, every column of the record can be recovered.", "quantifier": "all pairs of accepted records, of every kind, with any history of the objects", "why_tests_cant": "It is about all pairs of records; a test compares two.", "anchors": ["src/arinc424/record.py:Record.read", "src/arinc424/definitions"]}
{"id": "C104", "title": "Output that cannot represent every character", "statement": "On an output whose encoding lacks some characters (ASCII, a code page, UTF-8 with its missing surrogates) a call does what it does elsewhere if all characters of its lines, files and filters are in the encoding; ASCII files can be printed everywhere, files in UTF-8 where the output is UTF-8, files in a code page where the output is in that code page. Otherwise it prints exactly what precedes the first text that cannot be printed and raises UnicodeEncodeError; later calls are not affected. (That a record that cannot be printed costs no other record is false: read_file, read_folder and search stop there, and the rest of the file is not shown.)", "quantifier": "every set of characters the output can represent, every sequence of calls with any texts", "why_tests_cant": "all texts, all encodings, all histories", "anchors": ["src/arinc424/__init__.py:parse", "src/arinc424/__init__.py:read_file", "src/arinc424/__init__.py:search", "src/arinc424/record.py:Record.read", "src/arinc424/record.py:Record.decode", "src/arinc424/decoder.py:field_034", "src/arinc424/decoder.py:field_065"]}
{"id": "C105", "title": "Using the table of record types", "statement": "A program may use the table records of the module arinc424.record. Entries that it adds, replaces or removes have no effect on records of other sections; asking for an entry (in, get) and looking up a supported section have no effect at all; a record type that it adds is used for the lines that name it in columns 5 and 6; sections whose entry it removes are not read. (That looking into the table changes nothing is false: records[key] for an unknown key enters it, and from then on every line that names it makes read, parse, search, read_file and read_folder raise AttributeError; after records['P '] no airport record can be read.)", "quantifier": "every sequence of calls and uses of the table, every line", "why_tests_cant": "all histories, all lines, all keys", "anchors": ["src/arinc424/record.py:records", "src/arinc424/record.py:def_val", "src/arinc424/record.py:Record.read"]}
{"id": "C106", "title": "The table that decode returns", "statement": "The text that decode returns and prints, for a record of printable ASCII characters, is a table: a rule, the header Field, Value, Decoded, a rule, the rows, a rule; three columns, each exactly as wide as its widest text, filled up with blanks; all lines have the same length; a decoded value of several lines continues below its row; nothing is cut or wrapped. The table can be read back: if the tables of two records have the same text, the records have the same fields with the same raw values, in the same order, and the decoded values are the same but for blanks at the end of a line.", "quantifier": "every accepted line of printable ASCII characters (with or without line end), every object, every history; nothing is cut: every record whatsoever and every way to measure texts", "why_tests_cant": "all lines, all pairs of records", "anchors": ["src/arinc424/record.py:Record.decode"]}
{"id": "C107", "title": "Standard output as text", "statement": "What the calls write to standard output, character by character (tables, complaints, the coloured summary, ends of lines): search writes the records that match, one per line, and then the summary; searching what a search wrote, with colours or without, finds the same records again (complaints and the summary are never taken for records), and writes the same text if there were no complaints. What read_file or read_folder wrote determines, text by text, what it printed, and the fields and raw values of every record shown, also if it ended with an exception. A text can be printed in an encoding iff the encoding has all its characters (the basis of C104).", "quantifier": "every file (for search: that is read to its end; for read_file and read_folder: of printable ASCII characters), every filter that is a string without line ends or a list of strings, terminals with and without colours; for searching again: files whose matching records have no blanks in front", "why_tests_cant": "all files, pairs of files, filters and encodings", "anchors": ["src/arinc424/__init__.py:search", "src/arinc424/__init__.py:read_file", "src/arinc424/record.py:Record.decode", "src/arinc424/record.py:Record.read", "src/arinc424/decoder.py:field_065"]}
{"id": "C108", "title": "What exceptions tell", "statement": "The arguments of every exception of parse, read_file and decode, and what str() makes of them: parse raises a ValueError for a record whose application type is not supported, with a text that depends on the section, or for the first of its fields that is not in its format, with a text that contains the value; read_file passes on the exception of the first line that raises one, read_folder that of the first file, and search that of the first line whose application type is not supported; a program that calls one of them ends with exit status 0 only if all lines of all files were read.", "quantifier": "every line, every file, every table of leg types; for 'contains the value': records of printable ASCII characters without quotes and backslashes", "why_tests_cant": "all lines and files; every value outside the format of its field", "anchors": ["src/arinc424/__init__.py:parse", "src/arinc424/__init__.py:read_file", "src/arinc424/record.py:Record.decode", "src/arinc424/record.py:Record.read", "src/arinc424/decoder.py:field_024", "src/arinc424/decoder.py:field_108", "src/arinc424/decoder.py:freq"]}
{"id": "C109", "title": "Objects, lists and copies", "statement": "Record objects have references to lists of Field objects, which a caller can keep, change and share (copy.copy, r.fields = ...). Whatever a caller has done: a method does to an object what it does to one with a list of its own, and changes no other object, even if they share the list. The library never changes a list or a Field it has handed out: what was kept from r.fields stays the same after any calls. For programs that only create, copy and call, sharing makes no difference at all. After a successful read the object has a list and Fields of its own: changes to them do not show in other objects; and earlier changes are forgotten, the object shows what a new object shows. (A copy made with copy.copy shares list and Fields until one of the two reads again.)", "quantifier": "every program of a caller: any sequence of object creations, copies, calls, assignments to attributes of Records and Fields, and changes of lists", "why_tests_cant": "all histories of operations on objects that share lists", "anchors": ["src/arinc424/record.py:Record", "src/arinc424/record.py:Record.read", "src/arinc424/decoder.py:Field", "src/arinc424/definitions/Airport.py:Airport.read_primary"]}
{"id": "C110", "title": "What was written contains no records", "statement": "If the standard output of read_file or read_folder is saved and read with the library as if it were a file of records, nothing in it is taken for a record: read_file of it prints nothing, raises nothing and leaves no trace, and search finds nothing in it. This is true for every input, also when the call ended with an exception and whatever characters the input has.", "quantifier": "every file and folder (any text, files that cannot be opened or decoded), both values of output, any history, any screen and widths of characters, any filter", "why_tests_cant": "a record could be quoted at the start of a line of the output for some input only: every text, every message and every cell with line ends counts", "anchors": ["src/arinc424/__init__.py:read_file", "src/arinc424/__init__.py:read_folder", "src/arinc424/__init__.py:search", "src/arinc424/record.py:Record.decode", "src/arinc424/record.py:Record.read"]}
{"id": "C111", "title": "A damaged character damages only its fields", "statement": "If some characters of a line that is read are replaced by any others, in columns that do not decide what the record is (the first column, the section code, the continuation number, the application type of continuation records, the restriction type, the numbers at the end), the line is still read, as a record of the same section, primary or not as before, with the same list of fields; every field that contains none of these columns has the same value, and the same row in the table if both records can be decoded. If the original can be decoded, so can the damaged one, unless one of the fields with damaged columns is refused.", "quantifier": "every line without leading whitespace that is read, every set of columns that decide nothing, every other characters in them, whatever the object and the process did before", "why_tests_cant": "the damage can be in any columns of any kind of record, with any characters", "anchors": ["src/arinc424/record.py:Record.read", "src/arinc424/record.py:Record.decode", "src/arinc424/decoder.py:Field.decode"]}
{"id": "C112", "title": "Reading does not fill the memory", "statement": "After any number of calls, the only thing the library keeps (besides what is in the objects of the caller) is its two tables: that of the record definitions is the one of the import, and that of the leg types has at most some entries more, each once, each for a word of one or two letters which is no documented code and occurs in a text that was given to be decoded. So if the letters of all texts are among n characters there are at most n + n² entries more, and for ASCII texts the table never has more than 2756 entries, however many files are read. Searching adds none.", "quantifier": "every finite sequence of calls (Record(), read, decode, json, parse, read_file, read_folder, search), with any lines, files and folders", "why_tests_cant": "the entries are added by side effect when a field is decoded; whether they stay bounded depends on all records ever read", "anchors": ["src/arinc424/decoder.py:field_021", "src/arinc424/decoder.py:LegTypeDesc", "src/arinc424/record.py:records", "src/arinc424/record.py:Record.read", "src/arinc424/record.py:Record.decode", "src/arinc424/__init__.py:parse", "src/arinc424/__init__.py:read_file", "src/arinc424/__init__.py:read_folder"]}
{"id": "C113", "title": "A search makes an extract", "statement": "What search wrote to standard output, with its colours, complaints and summary, can be used as a file: read_file and search of it do exactly what they do with a file of the records found (those before the exception, if the search ended with one). So a second search in the output finds the records that satisfy both filters, which for lists of texts are those that one search with all the texts finds; and a search for parts of the texts finds at least as much, in the same order.", "quantifier": "every text file, all filters (strings without line ends, lists), every second filter and both values of output, any screen, any history", "why_tests_cant": "it must hold for all texts: no complaint, summary or filter may ever look like a record", "anchors": ["src/arinc424/__init__.py:search", "src/arinc424/__init__.py:read_file", "src/arinc424/record.py:Record.read"]}
{"id": "C114", "title": "Sorting, selecting and splitting files", "statement": "If the lines of a file are put in another order, read_file and search return for the new file iff they do for the old one, and if they return they print for each line what they printed for it before, in the order of the lines, and the same summary. If lines are removed from a file for which they return, they still return and print some of what they printed, in the same order. If a file is split between lines into the files of a folder, read_folder does exactly what read_file does with the one file, exceptions included.", "quantifier": "every text file, every rearrangement, every selection of lines, every split at line ends, both values of output, all filters, any history before each call", "why_tests_cant": "all files, permutations, sublists and splits: no line may have an effect on another one", "anchors": ["src/arinc424/__init__.py:read_file", "src/arinc424/__init__.py:read_folder", "src/arinc424/__init__.py:search", "src/arinc424/__init__.py:parse"]}
{"id": "C115", "title": "The output is proportionate to the input", "statement": "However a file is made, what read_file, read_folder and parse print is at most 2780 characters for each character that is read, and what search prints, besides its summary, at most ten. A table has at most 43 rows, the name of a field at most 42 characters, its value with the quotes at most 102, and its meaning at most 352 characters.", "quantifier": "every text file, every folder, every line without line ends, both values of output, all filters, any history before the call, any screen on which a character takes at most two columns", "why_tests_cant": "all files of all sizes: a file made by an adversary must not fill the disk or the terminal", "anchors": ["src/arinc424/__init__.py:read_file", "src/arinc424/__init__.py:read_folder", "src/arinc424/__init__.py:search", "src/arinc424/__init__.py:parse", "src/arinc424/record.py:Record.decode", "src/arinc424/decoder.py:field_026"]}
{"id": "C116", "title": "Writing a record to a file and reading it back", "statement": "The text that json returns, for any record and in either style, can be written to a file and is read back unchanged, on Windows or elsewhere, with UTF-8 or any encoding that extends ASCII; records written as one JSON text a line come back as that many lines, each with the names and values of its record. The table that decode returns for an accepted line without CR and without surrogates can be written and is read back unchanged; and if the JSON text is written after it into the same file, as the README does, the JSON text is the last line without the table's lower edge. Lines of records written to a new file are read and searched as in any file with these lines.", "quantifier": "every record object, every accepted line, both styles and both values of output, both conventions for line ends, every code page that extends ASCII, any number of records, any history before the call, any measure of the width of text", "why_tests_cant": "all texts of all records: whether a file can be written, and what is read back, depends on each character that occurs in it", "anchors": ["src/arinc424/record.py:Record.decode", "src/arinc424/record.py:Record.json", "src/arinc424/__init__.py:read_file", "src/arinc424/__init__.py:search"]}
{"id": "C117", "title": "Blanks in front of a record displace its columns", "statement": "A line that read accepts has at most four whitespace characters in front of the record. The record's text is kept without them, but the fields are taken from the columns of the line with them: each shows what stands that many columns to the left in the record (or the blanks). So the file record number and the cycle date end that many columns early, and the field 'Record Type' shows S or T exactly if there were no blanks. With blanks, decode raises ValueError and prints nothing, and so does parse: a table is only shown of records without blanks in front.", "quantifier": "every accepted line, with or without whitespace around the record, every kind of record, every prior state of the object", "why_tests_cant": "all lines and all layouts: tests read lines that begin with the record", "anchors": ["src/arinc424/record.py:Record.read", "src/arinc424/record.py:Record.validate", "src/arinc424/definitions/*.py:read*"]}
{"id": "C118", "title": "The work for a line is bounded", "statement": "A call uses what the threads of a process share (the tables of the module and standard output) at most six times for each line it is given, once more for the summary of a search, and decode at most three times, json once. So a thread that got that many turns has finished, with the results it gets alone, whatever the other threads do in between; no smaller number than six is enough for every line.", "quantifier": "any number of threads, every sequence of calls in each, every text and file, every interleaving", "why_tests_cant": "all interleavings and all inputs: a test measures some runs", "anchors": ["src/arinc424/record.py:Record.read", "src/arinc424/record.py:Record.decode", "src/arinc424/__init__.py:parse", "src/arinc424/__init__.py:read_file", "src/arinc424/__init__.py:read_folder", "src/arinc424/__init__.py:search", "src/arinc424/decoder.py:field_021"]}
{"id": "C119", "title": "The code of the decoders, as written, does what is said of it", "statement": "Whatever text and record it is called with, a decoder function of the library, executed statement by statement as it is written, returns, raises, prints and remembers exactly what the other claims say; it never fails in another way (a name that is not defined, a variable without a value, an operation on a value of a wrong type), and it changes nothing but the table of leg types. The same holds for Field(name, value, function).decode(record), and importing the module makes the table of leg types.", "quantifier": "every decoder function, every value, every record, every state of the table of leg types and of the output", "why_tests_cant": "Python finds such errors only when the statement is executed; a test executes the statements its values reach", "anchors": ["src/arinc424/decoder.py", "src/arinc424/decoder.py:Field", "src/arinc424/decoder.py:LegTypeDesc"]}
{"id": "C120", "title": "The code of the record definitions, as written, does what is said of it", "statement": "Importing the library executes its statements without error and makes one reader object for each kind of record, under exactly the documented section codes. Whatever text it is given, and whether the record is a primary or a continuation record, the reader of every kind, executed statement by statement as it is written, returns the fields with the names, columns and decoders, or raises the exception, that the other claims say; its column of the continuation number, its column and its function of the application type and its name are those of the other claims. It never fails in another way (a name that is not defined, a decoder that does not exist, a wrong number of arguments) and it changes nothing.", "quantifier": "every kind of record, every text of any length, primary and continuation records, every state", "why_tests_cant": "Python finds a misspelt name or decoder only when the statement is executed; the branches are chosen by characters of the record, of which there are more than tests can try", "anchors": ["src/arinc424/record.py:records", "src/arinc424/definitions/VHFNavaid.py", "src/arinc424/definitions/Waypoint.py", "src/arinc424/definitions/Airport.py"]}
{"id": "C121", "title": "The code of class Record, as written, does what is said of it", "statement": "A program imports the library, makes a Record and calls read, validate, primary, hasCont, decode and json on it, in any order and any number of times, with any lines and any value of output, and may catch the exceptions. The methods, executed statement by statement as they are written, together with the record definitions and decoders they call, return, raise and print exactly what the other claims say, and leave the object and the table of leg types exactly as they say. They never fail in another way and change nothing else.", "quantifier": "every sequence of method calls, every line, every screen", "why_tests_cant": "there are unboundedly many sequences of calls, and each call can go through some hundred thousand combinations of branches of the definitions and decoders", "anchors": ["src/arinc424/record.py:Record", "src/arinc424/decoder.py", "src/arinc424/record.py:records"]}
{"id": "C122", "title": "The code of parse, read_file, read_folder and search, as written, does what is said of it", "statement": "A program imports the library and calls parse, read_file, read_folder and search, in any order and any number of times, with any lines, files and folders, any value of output, and a text or a list of texts as filters, and may catch the exceptions. The functions, executed statement by statement as they are written down to the last decoder, return, raise and print exactly what the other claims say, and leave the table of leg types exactly as they say. They never fail in another way and change nothing else, and calls never nest deeper than eight.", "quantifier": "every sequence of calls, every line, file and folder, every screen", "why_tests_cant": "there are unboundedly many sequences of calls and unboundedly long files", "anchors": ["src/arinc424/__init__.py:parse", "src/arinc424/__init__.py:search", "src/arinc424/__init__.py:read_file", "src/arinc424/__init__.py:read_folder"]}
{"id": "C123", "title": "The code, as written, does what is specified", "statement": "From the text of the source to the specification, with no model between them. After any calls of the four functions: parse of a line of ASCII characters without unusual numbers returns, raises and prints what the specification of a line says; so do read_file with the lines of a file and read_folder with the files of a folder, and search with any characters. Whatever was called before, a call returns the same, raises the same exception with the same message, and prints the same. After any calls of the methods of a Record, read returns True for exactly the lines that the specification calls records, and leaves their text, their section and the specified fields in the object.", "quantifier": "every sequence of calls before, every line, file, folder and filter, every screen", "why_tests_cant": "there are unboundedly many histories, lines and files", "anchors": ["src/arinc424/__init__.py:parse", "src/arinc424/__init__.py:search", "src/arinc424/__init__.py:read_file", "src/arinc424/__init__.py:read_folder", "src/arinc424/record.py:Record.read"]}
{"id": "C124", "title": "Programs with any number of objects, executed by the code as written", "statement": "A program imports the library, makes any number of Record objects and calls their methods and parse, read_file, read_folder and search in any order and any number of times; it may catch exceptions and go on. The code, executed statement by statement as it is written, returns, raises and prints in every call what the other claims say of a process; afterwards every object is as they say, and the modules hold what they held after the import, but for leg types that are described as <UNKNOWN>. What is seen of the calls on one object, messages and texts included, is the same when all other calls are left out, and a call of a function of the package looks as in a fresh interpreter.", "quantifier": "every sequence of calls on any number of objects, every line, file, folder and filter, every screen", "why_tests_cant": "there are unboundedly many programs", "anchors": ["src/arinc424/record.py:Record", "src/arinc424/__init__.py:parse", "src/arinc424/__init__.py:search", "src/arinc424/__init__.py:read_file", "src/arinc424/__init__.py:read_folder", "src/arinc424/decoder.py:LegTypeDesc"]}
{"id": "C125", "title": "From the text of a line to JSON and the table, by the source, in any program", "statement": "In a program with any number of Record objects that has made any calls before, an object reads a line that is a record, and then any calls are made that leave that object alone (other objects are read and shown, files are read and searched, the object itself is shown). If the text of the library is then executed for json(output, True) on the object, it returns a JSON object whose names are those of the fields listed for that kind of record, in order, each with the columns of the last field of that name; json(output, False) returns the same sorted by name; decode(output) returns, if all fields have a meaning, the table with a row for each field: its name, its columns between quotes, its meaning. The text is printed if output is True, and nothing else is printed.", "quantifier": "every program before and in between, every object, every accepted line (json: no adjacent high and low surrogate; decode: ASCII characters, all fields with a meaning), printing or not, every width of characters and every choice of printable characters", "why_tests_cant": "all programs and all lines; the statement is about the text of the library, not about a model of it", "anchors": ["src/arinc424/record.py:Record.json", "src/arinc424/record.py:Record.decode", "src/arinc424/record.py:Record.read", "src/arinc424/__init__.py:parse"]}
