# (property, status, note)
CLAIMS = [
 ('C01', 'proved', ''),
 ('C02', 'proved', ''),
 ('C03', 'proved', ''),
 ('C04', 'proved', ''),
 ('C05', 'proved', ''),
 ('C06', 'proved', ''),
 ('C07', 'proved', ''),
 ('C08', 'partial', 'The code violates the full property (C08_refuted, C08_refuted_fields). Proved: shape outcome and raw text are unaffected.'),
 ('C09', 'proved', 'Exact characterisation (iff) of the exceptions of read.'),
 ('C10', 'partial', 'False for ER, EV, HV, PP (C10_refuted_raises; exact set in C09) and HC (C11_refuted). Proved for every other section.'),
 ('C11', 'partial', 'False for HC (C11_refuted). Proved for every other section.'),
 ('C12', 'proved', ''),
 ('C13', 'proved', ''),
 ('C14', 'partial', 'False for AS, EU, R, RA, TC, on every accepted line (C14_refuted). Proved for every other section.'),
 ('C15', 'proved', 'Stated, as in the property, for lines that are not EU; C15_refuted_EU shows the exclusion is needed.'),
 ('C16', 'partial', 'False for sections without a continuation column (C16_refuted). Proved for all others.'),
 ('C17', 'partial', 'False after three kinds of failure (C17_refuted_*). Proved for shape failures, unsupported application types and successes; C17_what_is_left classifies all failures.'),
 ('C18', 'partial', 'The code violates the property on every line: C18_refuted is the universally quantified negation.'),
 ('C19', 'proved', ''),
 ('C20', 'proved', ''),
 ('C21', 'proved', ''),
 ('C22', 'proved', ''),
 ('C23', 'proved', ''),
 ('C24', 'proved', ''),
 ('C25', 'proved', ''),
 ('C26', 'proved', 'Exact characterisation; the domains are in Spec/Domain.lean.'),
 ('C27', 'proved', 'Also proved that the list of sections is exact.'),
 ('C28', 'partial', 'False as an unconditional claim (C28_refuted). Proved: the exact cause.'),
 ('C29', 'proved', ''),
 ('C30', 'proved', 'Also for search.'),
 ('C31', 'proved', 'Also for search.'),
 ('C32', 'partial', 'The code violates the full property (C32_refuted). Proved: lines before the first raising line are processed, later lines have no effect; C29_all_lines covers files without a raising line.'),
 ('C33', 'proved', ''),
 ('C34', 'proved', ''),
 ('C35', 'proved', ''),
 ('C36', 'proved', ''),
 ('C37', 'proved', 'For texts without a high surrogate followed by a low one (C37_refuted_surrogate_pair shows the condition is needed); after a read it is enough that the line meets it (C37_accepted, C37_read).'),
 ('C38', 'proved', ''),
 ('C39', 'partial', 'False for the record kinds that repeat a field name (C39_refuted, exact list C39_exceptions_exact). Proved for all others.'),
 ('C40', 'proved', ''),
 ('C41', 'partial', 'False of zero, which is shown as " ft" (C41_refuted, for every field of the family). Proved for every other number and for text.'),
 ('C42', 'partial', 'Zero is shown as "00 ft" (C42_zero). Proved for every other number and for text.'),
 ('C43', 'proved', ''),
 ('C44', 'proved', ''),
 ('C45', 'proved', 'Distances even up to 15 digits.'),
 ('C46', 'proved', 'Up to 4300 digits, the limit of int().'),
 ('C47', 'partial', 'False of A to L (C47_refuted: always a double minus); other letters raise (C47_other_letter). Proved for M to Z.'),
 ('C48', 'proved', ''),
 ('C49', 'proved', ''),
 ('C50', 'proved', ''),
 ('C51', 'partial', 'Proved for every section but PN, for lines with the section code in the columns of their section. False of PN (C51_refuted).'),
 ('C52', 'partial', 'False of exactly PT and the continuation records of PK and HK (C52_exact); proved for all other kinds.'),
 ('C53', 'partial', 'False of EP continuation records (C53_refuted); for EU the layout is chosen on the restriction type, another field. Proved for all other kinds.'),
 ('C54', 'proved', ''),
 ('C55', 'proved', ''),
 ('C56', 'proved', ''),
 ('C57', 'partial', 'False of exactly the continuation records of PK and HK and of PA with application type P (C57_refuted); proved for all other kinds.'),
 ('C58', 'partial', 'False of exactly the fifteen kinds in Spec.overlapping (C58_refuted); proved for all other kinds.'),
 ('C59', 'proved', ''),
 ('C60', 'proved', ''),
 ('C61', 'proved', ''),
 ('C62', 'partial', 'Proved for every type but the 23 in Spec.mixedWidth, of each of which it is false (C62_refuted).'),
 ('C63', 'partial', 'Proved for every kind but the fifteen in Spec.overlapping, of each of which it is false (C63_refuted).'),
 ('C64', 'proved', ''),
 ('C65', 'proved', ''),
 ('C66', 'proved', ''),
 ('C67', 'partial', 'False of records with blanks in front (C67_refuted); proved for all others.'),
 ('C68', 'proved', ''),
 ('C69', 'partial', 'False of records that repeat a field name (C69_refuted); proved for all others.'),
 ('C70', 'proved', ''),
 ('C71', 'proved', ''),
 ('C72', 'partial', 'C72_fields proves names and order for every kind; C72_columns_partial the columns and types of all fields but the 59 marked "but" in Spec/Standard.lean, of which it is false (C72_refuted).'),
 ('C73', 'proved', 'For every Unicode database that agrees with ASCII.'),
 ('C74', 'proved', 'For values of ASCII characters.'),
 ('C75', 'proved', ''),
 ('C76', 'proved', 'For lines of ASCII characters.'),
 ('C77', 'proved', ''),
 ('C78', 'proved', 'For values of ASCII characters.'),
 ('C79', 'proved', 'For lines of ASCII characters without numbers written in unusual ways.'),
 ('C80', 'proved', ''),
 ('C81', 'proved', 'For lines in which no high surrogate is directly followed by a low one.'),
 ('C82', 'proved', ''),
 ('C83', 'proved', 'Record objects are not shared between threads; one dictionary operation or print is one atomic step.'),
 ('C84', 'proved', 'str(float) is modelled (shortest decimal that reads back); the table around the cells is the subject of C106.'),
 ('C85', 'proved', ''),
 ('C86', 'proved', ''),
 ('C87', 'proved', 'The table around the cells is the subject of C106.'),
 ('C88', 'proved', 'The drawing around the cells of a table is C106.'),
 ('C89', 'proved', 'For systems whose default encoding is UTF-8; that decoding in pieces gives the same is C94.'),
 ('C90', 'partial', 'False of files that begin with a record: it is lost without a message (C90_refuted; C90_first_line says so of every file). Proved for files whose first line is no record.'),
 ('C91', 'proved', 'A print that fails is taken to print nothing of its line.'),
 ('C92', 'partial', 'False of tuples, sets and other objects, which are ignored, and of lists with elements that are no strings (C92_refuted, C92_ignored); C92_search says what happens with every argument. Proved for strings and lists of strings.'),
 ('C93', 'partial', 'False of the directory of read_folder if it raises (C93_refuted; C93_folder_raises: always). Proved for all files, and for the directory if read_folder returns.'),
 ('C94', 'proved', 'For systems whose default encoding is UTF-8.'),
 ('C95', 'partial', 'False if any thread calls read (C95_refuted). Proved: what always holds of the object and of results; everything as alone if nobody calls read or all read the same line; acceptance if all read records of one section and continuation number. What records and LegTypeDesc give is taken from C83.'),
 ('C96', 'partial', 'False of files with lines longer than a record (C96_refuted). Proved for all others; C96_lines and C96_torn hold for all files.'),
 ('C97', 'partial', 'False in so far as a record can be lost before one that is shown (C97_refuted_growing), and of files that are rewritten in place (C97_refuted_rewritten). Proved: files that do not change; that nothing is missed that was there when the file was opened, and nothing invented, for files that only grow and have no lines of more than 132 characters.'),
 ('C98', 'partial', 'False if read_folder raises (C98_refuted, C98_vanished). Proved whenever it returns. What os.scandir guarantees is a hypothesis (POSIX).'),
 ('C99', 'partial', 'False of filters that are one string (C99_refuted). Proved for lists of strings, and for the count of any summary.'),
 ('C100', 'partial', 'False of output, which is compared with True by identity (C100_refuted); exactly what it does is proved (C100_output). The rest holds.'),
 ('C101', 'partial', 'False of files that are not ASCII (C101_refuted). Proved for ASCII; for the others exactly which records are lost (C101_lost, C101_file_partial). Code pages with two bytes for a character are not modelled.'),
 ('C102', 'proved', 'The characters outside ASCII do matter: C102_needed has a line accepted under one database only.'),
 ('C103', 'partial', 'False of every kind of record (C103_refuted). C103_iff says exactly which columns are shown (the table of gaps in Spec/Hidden.lean); given what is in the gaps, the record can be recovered (C103_told_partial).'),
 ('C104', 'partial', 'That a record that cannot be printed costs no other record is false (C104_refuted). Proved: what happens in every case, and that nothing happens when the encoding has the characters. That the frames of tables and the colour codes do not matter is C107_encoding.'),
 ('C105', 'partial', 'That looking into the table changes nothing is false (C105_refuted, C105_looked_up). Proved: what is not affected, and the effect of adding and removing entries. Entries that a program adds are objects like those of the library.'),
 ('C106', 'proved', 'The drawing by PrettyTable 3.9.0 (the version the project requires; its source is not in the repository) is modelled as documented in Model/Table.lean. Of wcwidth only that a text of printable ASCII characters is as wide as it is long is assumed.'),
 ('C107', 'proved', 'termcolor 2.3.0 and PrettyTable 3.9.0 (the versions the project requires; their sources are not in the repository) are modelled. Records with blanks in front are the exception known from C67.'),
 ('C108', 'partial', 'The full statement does not hold: the exceptions about an IFR capability (5.108), a time zone (5.178) and a guard/transmit indicator (5.182), and most about an application type, do not tell the value (C108_names_refuted); a bad frequency ends the program with exit status 0 and the rest of the file is not read (C108_status_refuted). C108_status, C108_folder_status and C108_search_status say exactly when the status is 0; for a search it is as it should be. Messages of OSError, UnicodeDecodeError, IndexError and AttributeError are not modelled.'),
 ('C109', 'proved', "For 'earlier changes are forgotten' airway restrictions (EU) are excepted, as in C15. copy.copy is Python's: a new object with the same attributes. Attributes set to values of other types are not modelled."),
 ('C110', 'proved', ''),
 ('C111', 'proved', 'Columns are counted from 0 in Deciding. The examples show that damage in the deciding columns does change the kind of record.'),
 ('C112', 'proved', ''),
 ('C113', 'proved', 'For records with blanks in front the extract has the records without the blanks (C113_extract); they may be other records (C67). With a string filter that contains line ends the summary can contain a record (see the last example).'),
 ('C114', 'proved', 'If a line raises, the order matters to what is printed (C114_order_matters), but not to whether something raises.'),
 ('C115', 'proved', 'The factors are bounds for the worst case that are easy to state, not the largest ratios. No limit is kept by the code on purpose: a field of four characters can be shown with 101 (`9e99` as a course).'),
 ('C116', 'proved', 'If a field contains a CR (possible for a line given to read directly), the table read back differs (C116_refuted_CR), the JSON text does not. A table with a surrogate cannot be written at all (C116_save).'),
 ('C117', 'proved', 'The expectation that blanks are refused or of no effect is refuted (C117_refuted): a record that is read without complaint with and without a blank, and shows another cycle date.'),
 ('C118', 'proved', 'One print or one operation of a dictionary is one turn, as in C83.'),
 ('C119', 'proved', "The syntax trees are those of Python's parser (tools/source.py); what they mean is Model/Lang.lean."),
 ('C120', 'proved', "The syntax trees are those of Python's parser (tools/source.py); what they mean is Model/Lang.lean."),
 ('C121', 'proved', "single_line is a bool. The syntax trees are those of Python's parser (tools/source.py); what they mean is Model/Lang.lean."),
 ('C122', 'proved', "A path is what open and os.scandir make of it. Filters of other types are in Model/Args.lean only. The syntax trees are those of Python's parser (tools/source.py); what they mean is Model/Lang.lean."),
 ('C123', 'proved', 'Puts C119-C122 (source and model) and C75-C81, C108 (model and specification) together. Of exceptions the specification says which; C108 has the messages.'),
 ('C124', 'proved', 'Objects are values here: a program that changes an object or its list of fields by hand is in Model/Objects.lean (C109) only.'),
 ('C125', 'proved', "C81 and C76 carried over to the syntax trees by C124. Relative to Python's parser, tools/source.py and the semantics in Model/Lang.lean."),
]
