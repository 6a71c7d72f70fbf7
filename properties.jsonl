{"id": "C01", "title": "Lossless tokenisation", "statement": "Parsing a chunk of input consumes every byte of it: the displayed pieces, in order, concatenate to exactly the chunk, no piece is empty, the \"Parsing inconsistency\" error is never raised, every piece is resolved to a template, and nothing is carried over to the next chunk.", "quantifier": "every byte sequence (any length, any of the 256 byte values)", "why_tests_cant": "there are infinitely many byte sequences and the parser is one 34-group regular expression whose coverage is a claim about all of them", "anchors": ["kolombos/byteio/parser/parser.py: Parser.F_SEPARATOR, Parser.parse, Parser._substitute, Parser._resolve_match", "kolombos/byteio/parser/buffer.py: ParserBuffer.crop_raw", "pytermor/util/string_filter.py: StringFilter.apply"]}
{"id": "C02", "title": "UTF-8 pieces are exactly one valid character", "statement": "Whatever is displayed as a UTF-8 sequence is the UTF-8 encoding of exactly one Unicode scalar value >= U+0080 (no overlong forms, no surrogates, nothing above U+10FFFF), and in text mode exactly that character is printed for it.", "quantifier": "every byte sequence, every piece of it classified as UTF-8", "why_tests_cant": "the set of byte sequences and of scalar values cannot be enumerated by examples; boundaries of seven regex alternatives must all be right", "anchors": ["kolombos/byteio/parser/parser.py: Parser.F_SEPARATOR group 0", "kolombos/byteio/template/template_utf8.py: Utf8SequenceTemplate._process"]}
{"id": "C03", "title": "Valid UTF-8 text contains no binary data", "statement": "If a chunk is the UTF-8 encoding of some text, no byte of it is displayed as binary data and the pieces displayed as UTF-8 are exactly its non-ASCII characters, in order.", "quantifier": "every list of Unicode characters", "why_tests_cant": "needs completeness over all texts, including interactions of UTF-8 alternatives with escape sequences", "anchors": ["kolombos/byteio/parser/parser.py: Parser.F_SEPARATOR"]}
{"id": "C04", "title": "Valid UTF-8 is recognised after invalid bytes", "statement": "A valid UTF-8 sequence is displayed as UTF-8 no matter what bytes surround it in the chunk (README: valid UTF-8 sequences \"can be seen even in completely random byte data\").", "quantifier": "every pair of surrounding byte sequences and every non-ASCII character", "why_tests_cant": "depends on greedy matching over unbounded contexts", "anchors": ["kolombos/byteio/parser/parser.py: Parser.F_SEPARATOR groups 0 and 1", "README.md: UTF-8 and binary data"]}
{"id": "C05", "title": "Documented byte ranges of the character classes", "statement": "Outside escape sequences every byte is displayed with its documented class: 09-0d and 20 whitespace, 00-08, 0e-1f and 7f control, 21-7e printable, 80-ff UTF-8 or binary.", "quantifier": "every byte sequence and every byte position in it", "why_tests_cant": "class of a byte depends on the unbounded context before it", "anchors": ["kolombos/byteio/parser/parser.py: Parser.F_SEPARATOR, MGROUP_TO_TPL_MAP", "README.md: Character classes"]}
{"id": "C06", "title": "Escape sequence grammar", "statement": "A piece is displayed as an escape sequence exactly when it has the ECMA-48/ISO-2022 form: ESC [ parameters(30-3f)* intermediates(20-2f)* final(40-7e); ESC intermediates(20-2f)+ final(30-7e); ESC and one byte 30-7e. An ESC that starts none of these is displayed alone as a control character. CSI takes precedence over the two-byte form.", "quantifier": "every byte sequence following an ESC", "why_tests_cant": "unbounded parameter and intermediate strings; backtracking regex semantics", "anchors": ["kolombos/byteio/parser/parser.py: Parser.F_SEPARATOR groups 2-21, 25"]}
{"id": "C07", "title": "SGR, reset and CSI markers are told apart", "statement": "A CSI sequence is marked as reset if its final byte is m and its parameter string is empty or \"0\", as SGR if its final byte is m otherwise, and as generic CSI if the final byte is not m.", "quantifier": "every CSI sequence", "why_tests_cant": "unbounded parameter strings", "anchors": ["kolombos/byteio/parser/parser.py: Parser._resolve_escape_seq_csi"]}
{"id": "C08", "title": "No input makes the application abort", "statement": "For every input and every setting the run ends normally (exit status 0), never with an exception.", "quantifier": "every input, chunking and setting", "why_tests_cant": "the failing input may be one sequence among infinitely many", "anchors": ["kolombos/app.py: App.run", "kolombos/byteio/template/template_escape_sgr.py: EscapeSequenceSGRTemplate.set_details_fmt_str", "kolombos/byteio/parser/parser.py: Parser.parse"]}
{"id": "C09", "title": "The only exception input data can cause", "statement": "Processing a chunk fails if and only if the chunk contains an SGR sequence one of whose non-empty ;-separated parameters does not start with a decimal number (ended by : or by the end of the parameter), and then the error is ValueError; in particular KeyError, BufferError, TypeError and RuntimeError cannot be caused by any input, in any display, marker or read mode.", "quantifier": "every chunk, every setting", "why_tests_cant": "an iff over all inputs and all settings", "anchors": ["kolombos/byteio/template/template_escape_sgr.py: EscapeSequenceSGRTemplate.set_details_fmt_str", "kolombos/byteio/template/template_control.py: ControlCharGenericTemplate._fill_additional_segments", "kolombos/byteio/segment/segment.py: Segment.split"]}
{"id": "C10", "title": "Segment buffer is a byte queue", "statement": "Any sequence of attach and detach operations returns the raw bytes in the order they were attached, none lost, duplicated or reordered; what has not been returned yet is still in the buffer.", "quantifier": "every history of attach/detach_bytes/detach_line calls", "why_tests_cant": "quantifies over unbounded operation histories and split points", "anchors": ["kolombos/byteio/segment/buffer.py: SegmentBuffer.attach, detach_bytes, detach_line, _detach"]}
{"id": "C11", "title": "detach_bytes returns exactly what was asked", "statement": "detach_bytes(n) with n >= 0 returns min(n, available) data bytes when enough data is available or force is set (reported by last_detached_data_len), raises EOFError only if that is nothing, and otherwise raises WaitRequest and leaves the buffer unchanged.", "quantifier": "every buffer content, every n >= 0, both values of force", "why_tests_cant": "all contents and split positions", "anchors": ["kolombos/byteio/segment/buffer.py: SegmentBuffer.detach_bytes, _detach, last_detached_data_len"]}
{"id": "C12", "title": "Splitting a segment loses nothing", "statement": "Splitting a segment after n bytes yields two segments whose raw bytes and displayed characters concatenate to the original, keep its style and type, and have n and len-n bytes; it is refused with BufferError, changing nothing, exactly when the numbers of bytes and displayed characters differ.", "quantifier": "every segment and split position", "why_tests_cant": "all segments", "anchors": ["kolombos/byteio/segment/segment.py: Segment.split, is_consistent"]}
{"id": "C13", "title": "Every printed row or line ends with default terminal style", "statement": "Interpreting a printed binary row or text line on a terminal that starts with default attributes leaves the terminal with default attributes at its end, whatever sequence was cut at the row boundary.", "quantifier": "every input, chunking, column count and setting", "why_tests_cant": "style bookkeeping over unbounded histories with splits at every position", "anchors": ["kolombos/byteio/segment/buffer.py: SegmentBuffer._detach, attach", "kolombos/byteio/formatter/binary.py", "kolombos/byteio/formatter/text.py", "pytermor/ansi.py: Span, _SgrPairityRegistry.get_closing_seq"]}
{"id": "C14", "title": "Row width does not change how a byte looks", "statement": "In binary mode the character and the terminal style (colours and attributes) with which a byte is displayed do not depend on the number of columns, nor on where row boundaries fall.", "quantifier": "every input, every byte position, every pair of positive column counts", "why_tests_cant": "all split positions of all segments", "anchors": ["kolombos/byteio/segment/buffer.py: SegmentBuffer._detach"]}
{"id": "C15", "title": "Style bookkeeping never fails and never grows", "statement": "Removing a style from the active list never fails, and after any history of operations at most one style is active.", "quantifier": "every history of attach/detach operations", "why_tests_cant": "unbounded histories", "anchors": ["kolombos/byteio/segment/buffer.py: SegmentBuffer._active_sgrs, _detach"]}
{"id": "C16", "title": "Binary mode never needs to split an inconsistent segment", "statement": "In binary mode every segment has as many displayed characters as raw bytes, so each input byte corresponds to exactly one hex value and one displayed character and BufferError is never raised.", "quantifier": "every input, chunking, display mode combination and decode setting", "why_tests_cant": "all inputs times all settings", "anchors": ["kolombos/byteio/template/*.py: substitute, _process", "kolombos/byteio/segment/segment.py: Segment.split", "README.md: in binary mode each byte of input corresponds strictly to one hex value and one text representation character"]}
{"id": "C17", "title": "Binary row geometry", "statement": "With c > 0 columns, binary output consists of ceil(n/c) rows for n processed bytes; every row but the last shows exactly c bytes; after removing SGR codes a row is prefix, c cells of 3 characters (hex or blank), a space, a separator and one character per byte.", "quantifier": "every input, chunking and column count c > 0", "why_tests_cant": "unbounded inputs and all chunkings", "anchors": ["kolombos/byteio/formatter/binary.py: BinaryFormatter.format, _justify_raw", "kolombos/byteio/segment/buffer.py: detach_bytes"]}
{"id": "C18", "title": "The hex column is the input", "statement": "The hex values shown in binary mode, read row by row, are exactly the processed bytes in order, independently of chunking, column count, display modes and decode.", "quantifier": "every input, chunking, setting and column count c > 0", "why_tests_cant": "end-to-end claim over all inputs", "anchors": ["kolombos/byteio/formatter/_abstract.py: AbstractFormatter._seg_raw_to_hex", "kolombos/byteio/formatter/binary.py"]}
{"id": "C19", "title": "Row offsets and total size", "statement": "Row i of binary output is labelled with offset i*c and the final line with the total number of processed bytes.", "quantifier": "every input, chunking, column count c > 0", "why_tests_cant": "accumulated over unbounded histories", "anchors": ["kolombos/byteio/formatter/binary.py: BinaryFormatter._offset", "kolombos/console.py: ConsoleOutputBuffer.write_with_offset, Console.format_total_size"]}
{"id": "C20", "title": "Offset labels denote the offset", "statement": "The offset label printed for a row determines the offset: it reads 0x followed by the offset in hexadecimal (or the offset in decimal with --decimal-offsets).", "quantifier": "every offset", "why_tests_cant": "a label is truncated only at large offsets, far beyond practical test inputs", "anchors": ["kolombos/console.py: Console.format_prefix_with_offset, Console.format_prefix"]}
{"id": "C21", "title": "Binary mode buffers less than one row", "statement": "After each non-final chunk fewer than c bytes are held back: every complete row has already been printed; after the final chunk nothing is held back.", "quantifier": "every history of chunks, every c > 0", "why_tests_cant": "unbounded histories", "anchors": ["kolombos/byteio/formatter/binary.py: BinaryFormatter.format"]}
{"id": "C22", "title": "Interrupted output is a prefix of the full output", "statement": "If reading is interrupted after any chunk (KeyboardInterrupt or crash) what has been printed is a prefix of what the uninterrupted run prints.", "quantifier": "every input, chunking and interruption point", "why_tests_cant": "all crash points of all runs", "anchors": ["kolombos/byteio/reader.py: Reader.read", "kolombos/runner/byteio.py: ByteIoRunner._process_chunk_buffered"]}
{"id": "C23", "title": "Binary formatting terminates", "statement": "Formatting a chunk in binary mode terminates for every column setting.", "quantifier": "every buffer state and every column count, including 0 and negative ones reachable from narrow terminals or -w", "why_tests_cant": "non-termination cannot be observed by a test", "anchors": ["kolombos/byteio/formatter/binary.py: BinaryFormatter.format, _compute_cols_num", "kolombos/byteio/segment/buffer.py: _detach"]}
{"id": "C24", "title": "Automatic column count fits the terminal", "statement": "The automatically chosen column count is a multiple of 4, and a row (prefix, hex, separator, characters of width 1) of that many columns fits into the terminal width; it is positive for every terminal width.", "quantifier": "every terminal width, both offset formats", "why_tests_cant": "all widths; includes widths nobody tests", "anchors": ["kolombos/byteio/formatter/binary.py: BinaryFormatter._compute_cols_num", "kolombos/common.py: get_terminal_width"]}
{"id": "C25", "title": "Text mode line structure", "statement": "In text mode one numbered line is printed per line of processed input (a final unterminated line counts if it is not empty); numbers are 1,2,3,...; of the characters printed for a line (SGR codes removed) the last is a line feed and no other is.", "quantifier": "every displayable input (C09) and chunking, every setting without --debug", "why_tests_cant": "unbounded inputs and all chunkings", "anchors": ["kolombos/byteio/formatter/text.py: TextFormatter.format", "kolombos/byteio/segment/buffer.py: detach_line"]}
{"id": "C26", "title": "Text mode shows every piece", "statement": "In text mode the characters displayed on line k are, in order, the markers and characters of all pieces of input line k: nothing is dropped, in any marker mode.", "quantifier": "every input, chunking and setting", "why_tests_cant": "end-to-end claim over all inputs, including where the input ends", "anchors": ["kolombos/byteio/segment/buffer.py: detach_line, _detach", "kolombos/byteio/formatter/text.py"]}
{"id": "C27", "title": "Text mode prints complete lines promptly", "statement": "After each chunk every line whose line feed has been read is printed; only the last incomplete line is held back; after the final chunk the incomplete line is printed too and no data is held back.", "quantifier": "every history of chunks", "why_tests_cant": "unbounded histories", "anchors": ["kolombos/byteio/formatter/text.py: TextFormatter.format"]}
{"id": "C28", "title": "No input control character reaches the terminal", "statement": "Apart from the line feeds and tabs written for input line feeds and tabs, no control character (C0, DEL or C1) of the input reaches the terminal: every ESC printed belongs to an SGR sequence of the application.", "quantifier": "every input, chunking and setting", "why_tests_cant": "terminal injection is a claim about all inputs", "anchors": ["kolombos/byteio/template/*.py", "kolombos/byteio/template/template_utf8.py: Utf8SequenceTemplate._process"]}
{"id": "C29", "title": "Ignored classes", "statement": "A byte of an ignored character class is displayed as one multiplication sign per byte (plus the line feed itself for line feeds in text mode) in dim grey, whatever the focus flag, marker details or decode setting.", "quantifier": "every piece of an ignored class, every setting", "why_tests_cant": "all pieces times all settings", "anchors": ["kolombos/settings.py: Settings.get_char_class_display_mode", "kolombos/byteio/template/template.py", "kolombos/byteio/template/template_newline.py", "kolombos/byteio/template/template_escape.py"]}
{"id": "C30", "title": "Focusing changes only the style", "statement": "Focusing a character class does not change the displayed characters except for spaces, and does not change anything displayed for other classes.", "quantifier": "every input and setting", "why_tests_cant": "all inputs times all settings", "anchors": ["kolombos/byteio/template/registry.py", "kolombos/byteio/template/template.py"]}
{"id": "C31", "title": "Control character details", "statement": "In text mode with marker details 1 each control character 01-1f (not backspace, whitespace or ESC) is displayed as its marker followed by its caret-notation letter, with details 2 by its two-digit hex code, with details 0 by the marker alone.", "quantifier": "every run of control characters of any length", "why_tests_cant": "unbounded runs", "anchors": ["kolombos/byteio/template/template_control.py: ControlCharGenericTemplate.substitute"]}
{"id": "C32", "title": "Text mode accounts for every byte", "statement": "In text mode the offsets reported (last_detached_data_len, debug offsets) count the input bytes: the data lengths of the segments of a piece add up to the length of the piece.", "quantifier": "every piece, every marker level", "why_tests_cant": "all pieces", "anchors": ["kolombos/byteio/template/template_control.py: bytes(label_raw)", "kolombos/byteio/template/template_escape.py: _fill_additional_segments"]}
{"id": "C33", "title": "--color-markers applies only harmless attributes", "statement": "With --color-markers the style copied from an input SGR sequence contains only dim, italic, overlined, crosslined and colour codes of the input sequence, in the order of the input: never bold, underline, blink, inverse, hidden or reset, and every extended colour is complete (38/48;5;n or 38/48;2;r;g;b).", "quantifier": "every SGR parameter string", "why_tests_cant": "unbounded parameter strings", "anchors": ["kolombos/byteio/template/template_escape_sgr.py: set_details_fmt_str"]}
{"id": "C34", "title": "Read mode is decided once", "statement": "The read mode is binary if -b was given, text if -t was given, otherwise the default of the runner (binary for --demo); asking for it any number of times gives the same answer; and the debug level does not influence it.", "quantifier": "every combination of flags, every history of queries", "why_tests_cant": "reading the property has side effects, so histories matter", "anchors": ["kolombos/settings.py: Settings.read_mode, set_default_read_mode", "kolombos/console.py: Console.debug_settings", "kolombos/runner/demo.py"]}
{"id": "C35", "title": "Override lookup order", "statement": "PartialOverride.get(k1,...,kn) returns the override of the first of the keys that has one, else the default; set(k,v) changes the answer for k only.", "quantifier": "every override table, every key list", "why_tests_cant": "all tables and key lists", "anchors": ["kolombos/byteio/partial_override.py: PartialOverride"]}
{"id": "C36", "title": "--max-bytes", "statement": "With max_bytes = n > 0 and no line limit the processed data is exactly the first min(n, length) bytes of the input, for every chunk size.", "quantifier": "every input, every chunking, every n > 0", "why_tests_cant": "all chunkings, boundaries at every position", "anchors": ["kolombos/byteio/reader.py: Reader.read"]}
{"id": "C37", "title": "--max-lines", "statement": "With max_lines = n > 0 and no byte limit the processed data is exactly the input up to, not including, its n-th line feed (the whole input if it has fewer), for every chunk size; with both limits it is the shorter of the two prefixes.", "quantifier": "every input, every chunking, every n > 0", "why_tests_cant": "all chunkings, boundaries at every position", "anchors": ["kolombos/byteio/reader.py: Reader.read"]}
{"id": "C38", "title": "Reader delivers contiguous data and exactly one end marker", "statement": "The reader reports each piece of data with the offset equal to the number of bytes delivered before, the end of input is reported exactly once and last, and without limits the data delivered is the whole input.", "quantifier": "every input and chunking, every limit", "why_tests_cant": "unbounded histories", "anchors": ["kolombos/byteio/reader.py: Reader.read"]}
{"id": "C39", "title": "The input file is always closed", "statement": "However reading ends (end of input, limit, interruption or error in processing) the input is closed; only an interruption is swallowed, an error is passed on.", "quantifier": "every outcome of every callback and read", "why_tests_cant": "all failure points", "anchors": ["kolombos/byteio/reader.py: Reader.read, close"]}
{"id": "C40", "title": "Chunking does not affect the display", "statement": "The displayed output does not depend on the read buffer size (--buffer), i.e. on how the input is cut into chunks.", "quantifier": "every input and every pair of chunkings", "why_tests_cant": "a difference shows only when a cut falls inside a particular sequence", "anchors": ["kolombos/runner/byteio.py: ByteIoRunner._process_chunk_buffered", "kolombos/byteio/parser/parser.py: Parser.parse", "kolombos/byteio/parser/buffer.py"]}
{"id": "C41", "title": "SGR codes are unambiguous", "statement": "Different parameter lists assemble to different strings, equality and hash of sequences agree with the parameter lists, the empty list assembles to the empty string, and addition is concatenation (associative, NOOP neutral).", "quantifier": "every pair of parameter lists", "why_tests_cant": "all pairs", "anchors": ["pytermor/ansi.py: SequenceSGR.assemble, __eq__, __hash__, __add__"]}
{"id": "C42", "title": "Closing sequences undo opening sequences", "statement": "Applying an opening sequence made of valid style codes and then its closing sequence to a terminal with default attributes gives default attributes again, and the closing sequence leaves attributes that the opening did not touch unchanged.", "quantifier": "every list of style codes including extended colours, every terminal state", "why_tests_cant": "all parameter lists of any length", "anchors": ["pytermor/ansi.py: _SgrPairityRegistry.get_closing_seq, Span"]}
{"id": "C43", "title": "SGR removal", "statement": "Removing SGR codes from a string built of plain text (without ESC) and assembled SGR sequences returns exactly the plain text; padding functions based on it give visible width max(width, visible length).", "quantifier": "every list of text pieces and sequences", "why_tests_cant": "unbounded strings, regex search semantics", "anchors": ["pytermor/util/string_filter.py: ReplaceSGR", "pytermor/util/stdlib_ext.py: ljust_sgr, rjust_sgr, center_sgr"]}
{"id": "C44", "title": "Cropping the parser buffer", "statement": "ParserBuffer.crop_raw(rest) leaves exactly rest in the buffer when rest is a suffix of the buffer and fails with RuntimeError, changing nothing, when rest does not occur in it.", "quantifier": "every buffer content and suffix", "why_tests_cant": "repeated substrings", "anchors": ["kolombos/byteio/parser/buffer.py: ParserBuffer.crop_raw"]}
{"id": "C45", "title": "Sequence references compare by content", "statement": "Two sequence references compare equal if and only if they refer to equal SGR sequences.", "quantifier": "every pair of references", "why_tests_cant": "the existing tests rely on this equality and pass vacuously", "anchors": ["kolombos/byteio/segment/sequence_ref.py: SequenceRef.__eq__"]}
{"id": "C46", "title": "Exit status", "statement": "The process exits with status 0 exactly when the run ends normally or reading is interrupted, and with 1 when any error is raised.", "quantifier": "every outcome", "why_tests_cant": "all failure points", "anchors": ["kolombos/app.py: App.run"]}
{"id": "C47", "title": "Nearest colour search and its cache", "statement": "After any history of registrations and searches, a colour search returns a registered colour at minimal RGB distance, the same one that a search without the cache returns.", "quantifier": "every history of add_to_map/find_closest operations, every 24-bit colour", "why_tests_cant": "caches go wrong only on particular histories", "anchors": ["pytermor/color.py: Approximator.add_to_map, find_closest, approximate"]}
{"id": "C48", "title": "Padded distribution fills the width", "statement": "distribute_padded returns a string of exactly max_len characters that contains the values in order with at least one space between neighbours, and fails exactly when the values do not fit.", "quantifier": "every non-empty list of strings and every width", "why_tests_cant": "all lists", "anchors": ["pytermor/render.py: distribute_padded"]}
{"id": "C49", "title": "Time deltas fit the requested length", "statement": "format_time_delta(seconds, max_len) returns at most max_len characters for every max_len >= 3 and every number of seconds.", "quantifier": "every number of seconds, every max_len >= 3", "why_tests_cant": "all numbers", "anchors": ["pytermor/util/time_delta.py: format_time_delta, TimeDeltaFormatter"]}
{"id": "C50", "title": "Binary mode character column follows the legend", "statement": "In binary mode the characters to the right of the separator are, read in order, those of the legend for the pieces of the input: one character per byte, the symbol of the piece, or the decoded character with --decode.", "quantifier": "every displayable input (C09), chunking, setting and positive column count", "why_tests_cant": "all inputs times all settings", "anchors": ["kolombos/byteio/formatter/binary.py: BinaryFormatter.format", "kolombos/byteio/template/*.py"]}
{"id": "C51", "title": "Colours of the display", "statement": "On a terminal, text mode shows for every line its label and then, for every piece of input, the characters of the legend in the colour of its kind (focused classes inverse or on cyan/white, ignored ones dim grey, details underlined on black, markers of SGR sequences in the copied style with --color-markers), and the default style is restored between pieces; binary mode does the same for the character column.", "quantifier": "every displayable complete input (C09), chunking and setting", "why_tests_cant": "all inputs times all settings", "anchors": ["kolombos/byteio/formatter/text.py: TextFormatter.format", "kolombos/byteio/formatter/binary.py: BinaryFormatter.format", "kolombos/byteio/template/registry.py", "kolombos/byteio/segment/segment.py"]}
{"id": "C52", "title": "Colour values and channels are interchangeable", "statement": "Splitting a 24-bit colour value into its red, green and blue channels gives three numbers within [0; 255] that join to the same value, and joining three numbers within [0; 255] gives a 24-bit value that splits into them.", "quantifier": "every 24-bit colour, every three bytes", "why_tests_cant": "2^24 colours and masks and shifts that overlap only for some values", "anchors": ["pytermor/color.py: Color.rgb_channels_to_hex_value, hex_value_to_rgb_channels"]}
{"id": "C53", "title": "HSV channels are within the documented ranges", "statement": "For every colour the hue is within [0; 359], saturation and value are within [0; 1], and no colour runs into the branch reported as impossible; the value is the largest channel, and the saturation the part of it by which the largest channel exceeds the smallest. The usual conversion back to RGB gives the colour, so different colours have different channels.", "quantifier": "every colour value", "why_tests_cant": "2^24 colours", "anchors": ["pytermor/color.py: Color.hex_value_to_hsv_channels"]}
{"id": "C54", "title": "What a time delta says", "statement": "format_time_delta names the whole number of the largest unit (seconds, minutes, hours, days, months of 30 days, years of 12 months) that the interval contains at least once, in the 6- and 10-character forms of hours and days together with the remaining minutes or hours, with a sign in the 10-character form only; intervals below one second are described as such, and an overflow is reported exactly from 100 days (3 characters), 100 years (4, 6) and 1000 years (10) on.", "quantifier": "every number of seconds, every width from 3 on", "why_tests_cant": "all numbers; unit boundaries", "anchors": ["pytermor/util/time_delta.py: format_time_delta, TimeDeltaFormatter, presets"]}
{"id": "C55", "title": "The command line is obeyed", "statement": "A command line without --help is accepted exactly if every number is a number, no two mutually exclusive options are given and at most one file is named; the accepted settings are exactly those asked for (a repeated number: the last one; -D: how often), independent of the order; everything else is refused with status 2. --help takes precedence over everything after it.", "quantifier": "every list of options and file names", "why_tests_cant": "all command lines", "anchors": ["kolombos/arghelp.py: AppArgumentParser.add_arguments", "kolombos/app.py: App.run", "kolombos/settings.py: Settings.__init__"]}
{"id": "C56", "title": "From the command line to the display", "statement": "Running the program on a readable file (that fits into the read buffer or is plain 7-bit text, without malformed SGR sequences) ends with status 0 and displays exactly the part of the file the limits allow: in text mode its lines with the legend characters and colours of all pieces, in binary mode rows whose hexadecimal columns give back exactly these bytes. A file that cannot be opened gives status 1, a wrong command line status 2.", "quantifier": "every such command line and file content", "why_tests_cant": "all files times all command lines, composition of all parts", "anchors": ["kolombos/__main__.py", "kolombos/app.py: App.run", "kolombos/runner/byteio.py: ByteIoRunner", "kolombos/byteio/reader.py: Reader", "kolombos/arghelp.py"]}
{"id": "C57", "title": "The demonstration", "statement": "`--demo` displays the bundled demonstration file the way `-b -w 16 --decode` displays a file: `-w` and `-t` given explicitly take precedence, all other options stay in effect, a file name is not used, and a hint about `--legend` follows; the status is 0.", "quantifier": "every command line with --demo", "why_tests_cant": "all command lines", "anchors": ["kolombos/runner/demo.py: DemoRunner", "kolombos/demo.bin", "kolombos/app.py: App.run"]}
{"id": "C58", "title": "The legend", "statement": "`--legend` prints the bundled legend without its comment lines, `--version` the two versions, whatever other options are given, with status 0; and every symbol the program displays in place of bytes of the input can be found in that legend in the same style.", "quantifier": "every command line with these options; every piece of input and every setting", "why_tests_cant": "all kinds of pieces times all settings, against the complete bundled file", "anchors": ["kolombos/runner/legend.py: LegendRunner", "kolombos/runner/version.py: VersionRunner", "kolombos/legend.ansi", "kolombos/byteio/template"]}
{"id": "C59", "title": "Styled text on a terminal", "statement": "Rendering a text of styled runs never fails, and on a terminal exactly the characters of the text appear, each with the attributes and colours of its run, on every line; under the compatibility settings each colour is the nearest one of the available palette. Afterwards the terminal is in its default state. If styles are switched off, or output is not a terminal, the text passes unchanged.", "quantifier": "all texts without escape characters, styles, settings, and histories of colours created and searched before", "why_tests_cant": "attributes, colour kinds, settings and cache states multiply", "anchors": ["pytermor/render.py: SgrRenderer", "pytermor/render.py: Text", "pytermor/color.py: Color.to_sgr"]}
{"id": "C60", "title": "Preset palettes", "statement": "The preset colours are exactly the 256-colour palette of xterm (indexes 16-255) and the 16 standard colours with their codes; a true colour reduced to 256 colours is off by at most 47 (root mean square over the channels), and a palette colour is reduced to itself, whatever else was created or searched.", "quantifier": "all 24-bit colours, all histories", "why_tests_cant": "16 million colours and a table of 256 entries", "anchors": ["pytermor/color.py: Colors", "pytermor/color.py: Approximator"]}
{"id": "C61", "title": "Inherited styles", "statement": "A style with ancestors has every property from the nearest ancestor (itself included) that sets it; a foreground picked automatically differs from the background by at least 90 in some channel.", "quantifier": "all chains of styles of any length; all background colours", "why_tests_cant": "chains of any length, all 24-bit colours", "anchors": ["pytermor/render.py: Style"]}
{"id": "C62", "title": "Equal styles", "statement": "Styles that compare equal are rendered the same.", "quantifier": "all pairs of styles", "why_tests_cant": "pairs of all attribute combinations", "anchors": ["pytermor/render.py: Style"]}
{"id": "C63", "title": "Texts as values", "statement": "A text consists of what was put into it, in order, each piece in its own style; raw() returns the characters and len() their number. Adding or formatting a text changes neither it nor other texts.", "quantifier": "all histories of operations on any number of texts", "why_tests_cant": "aliasing shows only after particular sequences of operations", "anchors": ["pytermor/render.py: Text"]}
{"id": "C64", "title": "Values in texts", "statement": "A text made from a value shows what str() gives for the value.", "quantifier": "all integers and strings", "why_tests_cant": "the exception is a single value", "anchors": ["pytermor/render.py: Text"]}
{"id": "C65", "title": "Debugging leaves the display intact", "statement": "At every debug level the program ends the same way as without debug output, and all lines of the display appear on the screen: whole, in the same colours and in the same order, between the messages. Without -D no messages appear at all.", "quantifier": "every setting (in binary mode with room for at least one column), standard input and every seekable file whose name has no control characters, every sequence of chunks and debug level", "why_tests_cant": "a message may leave a colour on or join a display line only at particular buffer states", "anchors": ["kolombos/console.py: ConsoleDebugBuffer", "kolombos/byteio/reader.py: Reader", "kolombos/byteio/parser", "kolombos/byteio/segment/buffer.py: SegmentBuffer", "kolombos/byteio/formatter"]}
{"id": "C66", "title": "Debug messages are single lines", "statement": "Every debug message is one line without control characters, whatever bytes it reports on, and leaves the terminal in its default style.", "quantifier": "every message of every run", "why_tests_cant": "messages quote input bytes and buffer contents, so any byte value can reach them", "anchors": ["kolombos/console.py: ConsoleDebugBuffer", "kolombos/console.py: Console.printd"]}
{"id": "C67", "title": "Source of the bytes", "statement": "The same bytes are displayed the same way, and the program ends the same way, whether they come from standard input or from a named file of any kind.", "quantifier": "every sequence of chunks, setting and kind of source", "why_tests_cant": "depends on the kind of file the bytes come from (pipe, device, regular file)", "anchors": ["kolombos/byteio/reader.py: Reader.read"]}
{"id": "C68", "title": "Debug messages report the input", "statement": "With -D there is a message for every chunk that is read, with its number, offset and length (and its bytes with -DDD), in the order of reading; in binary mode every row of the display is right below a message with the same offset and the same bytes.", "quantifier": "every sequence of chunks, setting and source", "why_tests_cant": "rows cross chunk boundaries in ways that depend on all earlier chunks", "anchors": ["kolombos/console.py: ConsoleDebugBuffer", "kolombos/byteio/reader.py: Reader", "kolombos/byteio/formatter/binary.py: BinaryFormatter"]}
{"id": "C69", "title": "Debug messages show the lines", "statement": "In text mode with -DD every line of the display is below a message with the offset of the line and its bytes, and a message with its offset and plain characters.", "quantifier": "every sequence of chunks, setting and source", "why_tests_cant": "lines cross chunk boundaries; offsets depend on all earlier lines", "anchors": ["kolombos/byteio/formatter/text.py: TextFormatter", "kolombos/console.py: ConsoleDebugBuffer", "kolombos/byteio/segment/buffer.py: SegmentBuffer"]}
{"id": "C70", "title": "Numbers of a required length", "statement": "A number formatted for a required number of characters has that many characters; without exponents a number with too many digits is refused with an error, and nothing else is.", "quantifier": "all numbers, lengths and both values of the exponent switch", "why_tests_cant": "rounding adds a digit only just below powers of ten", "anchors": ["pytermor/util/auto_float.py: format_auto_float"]}
{"id": "C71", "title": "Numbers are shown as exactly as there is room", "statement": "The text of a number is its sign, blanks, and a decimal numeral whose value is the nearest one that fits in the given number of characters; with an exponent, the exponent is the true power of ten and the significand is the nearest one for the rest of the room. Without room for it the field is filled with exclamation marks.", "quantifier": "all numbers and lengths", "why_tests_cant": "the amount of decimals depends on the magnitude, the sign and the length together", "anchors": ["pytermor/util/auto_float.py: format_auto_float"]}
{"id": "C72", "title": "Unit prefixes", "statement": "A value shown with a unit prefix is the value divided by the power of 1000 (or 1024) that the prefix stands for, rounded to the last digit that fits; bytes below a kilobyte are shown without a fraction. A value out of the range of the prefixes has a question mark in place of the prefix, and is refused with an error exactly when even its whole digits do not fit.", "quantifier": "all values and all units", "why_tests_cant": "seventeen prefixes, each with its own range of values", "anchors": ["pytermor/util/prefixed_unit.py: format_si_metric", "pytermor/util/prefixed_unit.py: format_si_binary"]}
{"id": "C73", "title": "Values with prefixes keep significant digits", "statement": "A value other than nought within the range of the prefixes is shown with some of its significant digits: within half a per cent, or five per cent if negative.", "quantifier": "all values within the range", "why_tests_cant": "the scale is chosen by comparisons at the boundaries between prefixes", "anchors": ["pytermor/util/prefixed_unit.py: format_si_metric"]}
{"id": "C74", "title": "Length of values with prefixes", "statement": "A value with a unit prefix takes no more than 4 characters (5 for binary sizes) besides the separator, the prefix and the unit.", "quantifier": "all values within the range", "why_tests_cant": "rounding adds a digit only just below powers of ten", "anchors": ["pytermor/util/prefixed_unit.py: format_si_metric", "pytermor/util/prefixed_unit.py: format_si_binary"]}
{"id": "C75", "title": "Groups of digits", "statement": "An integer with separators consists of its decimal digits, in groups of three from the right.", "quantifier": "all integers and separators", "why_tests_cant": "depends on the number of digits", "anchors": ["pytermor/util/__init__.py: format_thousand_sep"]}
{"id": "C76", "title": "No blanks within numbers", "statement": "In the text of a negative number there is no blank after the sign.", "quantifier": "all numbers and lengths", "why_tests_cant": "depends on the number of digits and the length together", "anchors": ["pytermor/util/auto_float.py: format_auto_float"]}
{"id": "C77", "title": "Sequences replaced by filters", "statement": "A filter for control sequences replaces every usual control sequence by its template, filled with the parts of that very sequence, and keeps the text in between as it is; the filter for colours and attributes keeps all other control sequences as well. In other texts sequences are found from left to right, and every character outside of them is kept.", "quantifier": "all texts, all templates", "why_tests_cant": "sequences of any length may follow each other in any number", "anchors": ["pytermor/util/string_filter.py: ReplaceCSI", "pytermor/util/string_filter.py: ReplaceSGR"]}
{"id": "C78", "title": "No control sequence is left", "statement": "After control sequences have been removed, none is left in the text; removing them again changes nothing.", "quantifier": "all texts", "why_tests_cant": "a sequence may be put together from what is left", "anchors": ["pytermor/util/string_filter.py: ReplaceCSI"]}
{"id": "C79", "title": "Whitespace and bytes replaced by filters", "statement": "With visible whitespace every whitespace character is replaced by the given text and every line still ends with its line feed; with the filter for bytes exactly the bytes from 128 on are replaced. Filters applied together are applied in their order.", "quantifier": "all texts, bytes and replacements", "why_tests_cant": "every position of the text counts", "anchors": ["pytermor/util/string_filter.py: VisualuzeWhitespace", "pytermor/util/string_filter.py: ReplaceNonAsciiBytes", "pytermor/util/string_filter.py: apply_filters"]}
{"id": "C80", "title": "Styled text for tmux", "statement": "A text rendered for tmux is drawn by tmux character by character as the styles say: the attributes and the colours, in compatibility modes the nearest ones; after it tmux draws as before. Without styles the text is written unchanged.", "quantifier": "all styled texts, palettes and settings", "why_tests_cant": "colours, attributes and settings in any combination, and tmux is not at hand", "anchors": ["pytermor/render.py: TmuxRenderer"]}
{"id": "C81", "title": "Styled text for HTML", "statement": "A text rendered for HTML appears in a browser character by character, and its style attribute declares every property of the style once and nothing else, in whatever order sets are iterated.", "quantifier": "all texts, styles and iteration orders", "why_tests_cant": "the order of a set changes from process to process", "anchors": ["pytermor/render.py: HtmlRenderer"]}
{"id": "C82", "title": "Swapped colours in HTML", "statement": "A text whose style swaps the colours appears in HTML differently from the same text without the swap.", "quantifier": "all texts and styles", "why_tests_cant": "any pair of colours or absent colours", "anchors": ["pytermor/render.py: HtmlRenderer"]}
{"id": "C83", "title": "Styles made visible as text", "statement": "A text rendered for debugging is the text rendered for a terminal with styles, each sequence replaced by its parameters between bars; it does not depend on there being a terminal and has no escape characters.", "quantifier": "all texts, styles, palettes and settings", "why_tests_cant": "every sequence at every position counts", "anchors": ["pytermor/render.py: DebugRenderer"]}
{"id": "C84", "title": "Styles by name", "statement": "A sequence or a span can be made of style names in upper or lower case, of codes and of other sequences, in any number and order: the wrapped text appears with all of them applied in that order and the terminal is left with default attributes. Presets looked up by name do what the name says. A name that is not known is refused with KeyError, other arguments with ValueError or TypeError.", "quantifier": "all lists of arguments, all texts, all states of the terminal", "why_tests_cant": "names, codes and sequences can be combined in any number and order", "anchors": ["pytermor/ansi.py: SequenceSGR.__init__", "pytermor/ansi.py: Span.__init__", "pytermor/common.py: Registry.resolve", "pytermor/ansi.py: Seqs", "pytermor/ansi.py: Spans"]}
{"id": "C85", "title": "Spans with explicit sequences", "statement": "A span made of an explicit opening and closing sequence writes the opening sequence, the text and the closing sequence; with a hard reset the terminal has default attributes after it.", "quantifier": "all sequences and texts", "why_tests_cant": "any pair of sequences can be given", "anchors": ["pytermor/ansi.py: Span.init_explicit"]}
{"id": "C86", "title": "Templates of the legend", "statement": "In a template, text is kept, comments vanish, formats become the sequence of the styles and codes they list, variables become their value, which is not read again; an unknown style or variable stays as it is written and is reported. Any template can be processed.", "quantifier": "all templates and variables", "why_tests_cant": "templates are free text; the three replacements run one after the other and could see the results of each other", "anchors": ["dev/es7s_tpl_processor.py: Es7sTemplateProcessor.substitute"]}
{"id": "C87", "title": "The bundled legend is up to date", "statement": "The legend shipped with the program is exactly what the generator makes of its template with the present templates of the program; versions and dates change nothing else, and no placeholder is left unresolved.", "quantifier": "all versions and dates, all tables of word characters outside ASCII", "why_tests_cant": "the file is generated by hand and checked in; a test would compare for one version", "anchors": ["dev/generate_legend.py", "dev/legend.tpl.ansi", "kolombos/legend.ansi"]}
{"id": "C88", "title": "The table of settings", "statement": "With -DDD the first thing on the screen is a table of all settings in alphabetical order, each with its value; exactly the settings that the command line changes are highlighted, with the default in brackets. With a fourth -D the table also lists what follows from the settings. Without -DDD there is no table.", "quantifier": "every well-formed command line and every terminal width; file names without ESC", "why_tests_cant": "the table is made by reflection over an object, from values of many types; the widths and the order depend on all names", "anchors": ["kolombos/console.py: Console.debug_settings", "kolombos/console.py: Console.get_separator_line", "kolombos/settings.py: Settings"]}
{"id": "C89", "title": "Debugging leaves the whole program intact", "statement": "Whatever the command line, the exit status does not depend on the debug messages, without -D the program prints none, and with them every line that the program shows is still there: whole, in its colours and in its order. If the program fails, only the hint to use --debug is replaced.", "quantifier": "every command line, every content of files and standard input that is seekable; for the lines: file names without control characters and room for at least one column in binary mode", "why_tests_cant": "messages, table and display share the terminal; a style left on or a missing line feed matters only in combination", "anchors": ["kolombos/app.py: App.run", "kolombos/console.py: Console.debug_settings", "kolombos/console.py: Console.on_exception"]}
{"id": "C90", "title": "Spelling of the command line", "statement": "A command line means what its words stand for: long names may be cut short as long as they are clear, letters may be put together, a number may follow its option at once, after = or as the next word, a negative number and a word with a blank are no options, and after -- there are only file names. Nothing else is accepted: no program run comes from an unknown option, and a word that begins two long names is refused whatever else is there.", "quantifier": "all lists of words, all ways to read numbers, all sets of digits outside ASCII", "why_tests_cant": "there are infinitely many spellings, and whether an abbreviation is clear depends on all other options", "anchors": ["kolombos/arghelp.py: AppArgumentParser", "kolombos/app.py: App.__init__"]}
{"id": "C91", "title": "The terminal changes only the layout of the help page", "statement": "Whatever the width of the terminal and wherever the output goes, the help page has the same words; only line breaks and colours differ, and no printed character gets lost.", "quantifier": "all widths, terminal or not", "why_tests_cant": "every width is another layout: whether a word is broken or loses a character depends on where the line ends", "anchors": ["kolombos/arghelp.py: CustomArgumentParser.format_help", "kolombos/arghelp.py: CustomHelpFormatter", "kolombos/arghelp.py: AppArgumentParser"]}
{"id": "C92", "title": "The help page lists the options", "statement": "The help page lists every option that the program accepts with its short and its long name on one line, lists none twice, and lists nothing that is not accepted, whatever the width of the terminal.", "quantifier": "all widths of at least 22 columns, terminal or not", "why_tests_cant": "the lists are written down in different places, and the layout differs for every width", "anchors": ["kolombos/arghelp.py: AppArgumentParser", "kolombos/arghelp.py: CustomHelpFormatter._format_action_invocation"]}
{"id": "C93", "title": "The help page fits the terminal", "statement": "Names and explanations of options never exceed the width of the terminal; a line of the help page that does is one of those that are the same for every terminal.", "quantifier": "all widths of at least 26 columns (24 columns are used in any case), terminal or not", "why_tests_cant": "infinitely many widths", "anchors": ["kolombos/arghelp.py: CustomHelpFormatter"]}
{"id": "C94", "title": "Asking for help twice", "statement": "A parser that is asked for its help text several times gives the same text each time, if the terminal is the same.", "quantifier": "all widths, any number of calls", "why_tests_cant": "sequences of calls of any length; the first call is the only one that tests make", "anchors": ["kolombos/arghelp.py: CustomArgumentParser.format_help"]}
{"id": "C95", "title": "Help without a terminal has no escape sequences", "statement": "If the output is not a terminal, the help page has no escape characters.", "quantifier": "all widths", "why_tests_cant": "all layouts would have to be tried", "anchors": ["kolombos/arghelp.py: CustomHelpFormatter.format_header", "kolombos/arghelp.py: AppArgumentParser"]}
{"id": "C96", "title": "Documented defaults are in effect", "statement": "A default value on the help page is the one the program uses: giving it explicitly (--buffer 4096, --marker 0, --text) changes nothing, and with -D giving the value that the remarks tell for --buffer changes nothing either.", "quantifier": "every command line without another value for the option, every content of files and standard input, all widths of the page from 22 columns on", "why_tests_cant": "the page is text, the defaults are spread over the settings and the reader; equality is needed for all inputs and combinations of options", "anchors": ["kolombos/arghelp.py: AppArgumentParser", "kolombos/settings.py: Settings", "kolombos/byteio/reader.py: Reader._get_chunk_size"]}
{"id": "C97", "title": "Options of the other mode have no effect", "statement": "An option that the help page lists under \"text mode options\" changes nothing in binary mode, and one listed under \"binary mode options\" changes nothing in text mode; in particular binary mode disables --marker.", "quantifier": "every command line that does not contain an option excluding the added one, every input, any number given to the option", "why_tests_cant": "absence of an effect is a statement about all inputs and all other options", "anchors": ["kolombos/arghelp.py: AppArgumentParser", "kolombos/formatter/text.py", "kolombos/formatter/binary.py"]}
{"id": "C98", "title": "What the demonstration implies", "statement": "As the help page says, --demo implies -b, -d and -w16 unless overridden (adding them changes nothing), reads the bundled file whatever else there is, and ignores a file name.", "quantifier": "every command line with --demo, every input", "why_tests_cant": "needs all combinations with other options, such as the debug level", "anchors": ["kolombos/arghelp.py: AppArgumentParser", "kolombos/runner/demo.py: DemoRunner"]}
{"id": "C99", "title": "The commands on the help page work", "statement": "Every command that the help page shows is accepted, means what the page says about it, and the mode in the description is the one used, whatever the width of the page.", "quantifier": "all widths from 22 columns on, all ways to read numbers that read decimal numerals, every input", "why_tests_cant": "the page is laid out differently for each width; examples in documentation are not executed by tests", "anchors": ["kolombos/arghelp.py: AppArgumentParser", "kolombos/app.py: App.run"]}
{"id": "C100", "title": "An output that fails", "statement": "If standard output rejects a text (unknown character, closed pipe, full disk), all texts before it have been written unchanged and in order, nothing else follows them but this text, the report of the error and an empty line, and the exit status is not 0; with an encoding that lacks a character the output is exactly the texts before the first one with such a character; if nothing is rejected the run does not differ from the usual one; the error is reported by the hint on standard output like any other error.", "quantifier": "for every behaviour of the output (any call may fail with any error, or work), every encoding, every command line, every input", "why_tests_cant": "a test checks one failing call of one run; which texts are lost, repeated or reported depends on where the failure happens", "anchors": ["kolombos/console.py:62-67", "kolombos/console.py:94-99", "kolombos/console.py:117-139", "kolombos/console.py:271-273", "kolombos/app.py:15-31"]}
{"id": "C101", "title": "Interruption while lines are displayed", "statement": "If the user interrupts the program while it displays the input (without -D), the lines displayed so far stay on the screen, each of them whole, no other line of the display follows, the program still prints its last empty line (and the hint of the demonstration) and the exit status is 0.", "quantifier": "for every input, every setting of both modes and of the demonstration, and every line at which the interruption happens", "why_tests_cant": "the interruption may come at any of unboundedly many moments", "anchors": ["kolombos/byteio/reader.py:34-76", "kolombos/app.py:15-31", "kolombos/runner/demo.py:16-26", "kolombos/console.py:62-67"]}
{"id": "C102", "title": "Usable with limited encodings", "statement": "An input of ASCII characters is displayed on every output whose encoding has the ASCII characters.", "quantifier": "for every encoding of the output, every input, every command line", "why_tests_cant": "tests run with UTF-8", "anchors": ["kolombos/console.py:157-159", "kolombos/console.py:33-67", "kolombos/byteio/formatter/text.py:24-51", "kolombos/byteio/formatter/binary.py:34-87"]}
{"id": "C103", "title": "Colours by name", "statement": "A colour can be given by name, in any mix of cases. A name stands for a colour of the 16-colour palette, of the 256-colour palette (both with the value and the codes terminals use) or a 24-bit colour, every colour of the palettes from 16 on has a name, names with a percentage of grey are greys of this percentage, names shared with spans mean the same colour, and text with a named colour appears in it; unknown names are refused.", "quantifier": "for every name, every text, every pair of names for text and background, every sequence of colours created and rendered before", "why_tests_cant": "tests resolve a handful of the 293 names and compare strings instead of what a terminal shows", "anchors": ["pytermor/color.py:334-642 Colors", "pytermor/common.py:18-31 Registry.resolve", "pytermor/render.py:163-168 Text", "pytermor/render.py:226-307 Style", "pytermor/render.py:336-342"]}
{"id": "C104", "title": "Default renderer and preferences", "statement": "Text.render() uses the renderer given last to RendererManager.set_up (the terminal renderer if none was given) with the preferences given last to set_up; nothing set earlier matters. Preferences given to SgrRenderer.set_up affect all renderers; with force_styles=None all renderers write every text as it is.", "quantifier": "all histories of calls of set_up on the manager and on the renderers, all texts, all palettes", "why_tests_cant": "interleavings of set_up calls on a class and its subclasses are unbounded, and class attributes are looked up through inheritance", "anchors": ["pytermor/render.py: RendererManager.set_up, RendererManager.get_default", "pytermor/render.py: SgrRenderer.set_up, SgrRenderer.is_sgr_usage_allowed", "pytermor/render.py: Renderable.render, Text._render_using"]}
{"id": "C105", "title": "Waiting for a key leaves the terminal as it was", "statement": "wait_key() switches line editing and echo off while it waits, changes nothing else, and restores all attributes of the terminal before it returns or raises, however the read ends. It returns the key pressed while it waits, None on an I/O error; n calls return n keys pressed one after the other. If the input is not a terminal it raises and does nothing.", "quantifier": "all attributes of the terminal, all keys typed before and during any number of calls, all exceptions of the read, all changes of the attributes by other programs meanwhile", "why_tests_cant": "an interruption can come at any moment and terminals have arbitrary flags; unit tests have no terminal", "anchors": ["pytermor/common.py: wait_key"]}
{"id": "C106", "title": "Where the number of columns comes from", "statement": "In binary mode without --columns the program prints exactly what it prints with --columns N, where N is four bytes for every 17 columns that the width of the terminal has beyond 31 (22 with --decimal-offsets). The width is the value of COLUMNS if that is a positive integer, else the width of the terminal the output goes to, else 80; hence output into a file or pipe has 8 bytes in a row (12 with decimal offsets) whatever the terminal is.", "quantifier": "all inputs and options, all values of COLUMNS and LINES, all widths of terminals that do not change during the run", "why_tests_cant": "the width is computed from the length of a prefix with invisible codes at every chunk again; only a proof shows that neither the offset nor the size of the input matters", "anchors": ["kolombos/common.py: get_terminal_width", "kolombos/byteio/formatter/binary.py: BinaryFormatter.format, _compute_cols_num", "kolombos/console.py: Console.format_prefix_with_offset"]}
{"id": "C107", "title": "Input larger than the buffer", "statement": "What a file or standard input of any size shows depends on the size of the read buffer only through the parts in which it is read: in text mode the lines, characters and colours of the pieces found in each part taken by itself, numbered on across the parts; in binary mode the hexadecimal columns give back exactly the bytes the limits allow, whatever the buffer, in rows whose number of columns is the given one or that computed from the width of the terminal. A part with a malformed SGR sequence ends the program with status 1 after the complete lines (full rows) of the parts before it, with the terminal in its default state; otherwise the status is 0.", "quantifier": "every file, every sequence of chunks of standard input, every buffer size, all options of a display without debugging, every terminal of constant width", "why_tests_cant": "sizes of file and buffer are unbounded and cuts may fall anywhere into sequences", "anchors": ["kolombos/byteio/reader.py: Reader.read, _get_chunk_size", "kolombos/byteio/parser/parser.py", "kolombos/byteio/formatter/binary.py", "kolombos/byteio/formatter/text.py", "kolombos/app.py: App.run"]}
{"id": "C108", "title": "Representations of sequences, spans, colours and styles", "statement": "repr() tells apart exactly the sequences that are different, the spans with different opening or closing sequences, the colours that compare unequal, and the styles with different colour values or attributes switched on; it shows the codes as they are sent, the values as six or more hexadecimal digits and the attributes that are on in alphabetical order. Styles with the same representation give the same HTML and, with 24-bit colours, the same terminal output; the palette a colour belongs to is not shown, so with other colours they may not.", "quantifier": "all sequences, spans, colours and styles, all texts and renderer settings", "why_tests_cant": "two different objects with the same representation can only be excluded by a proof about all pairs", "anchors": ["pytermor/ansi.py: SequenceSGR.__repr__, Span.__repr__", "pytermor/color.py: Color.format_value, Color.__repr__, __eq__", "pytermor/render.py: Style.__repr__"]}
{"id": "C109", "title": "Ready-made styles", "statement": "Styles.resolve finds the styles for warnings, errors and critical errors by their names, in any mix of cases, and nothing else; text with them appears in yellow, in red and in bright white on bright red, labels in bold, accents in bright yellow, in bright red and blinking in bold, on every terminal with styles, whatever colours were made before.", "quantifier": "all names, all texts, all settings of the renderer that allow styles, all histories of the palettes", "why_tests_cant": "colours of the palette depend on which colours were created before", "anchors": ["pytermor/render.py: Styles", "pytermor/common.py: Registry.resolve"]}
{"id": "C110", "title": "max_len is the maximum length", "statement": "What a formatter of values with unit prefixes returns is never longer than its max_len, plus what the given unit has more characters than its own.", "quantifier": "all formatters with room for two characters or more, all values and units", "why_tests_cant": "rounding adds a digit only just below powers of ten, at every scale", "anchors": ["pytermor/util/prefixed_unit.py: PrefixedUnitFormatter.max_len", "pytermor/util/prefixed_unit.py: PrefixedUnitFormatter.format"]}
{"id": "C111", "title": "Replacements as they are written", "statement": "In the replacement given to a filter characters stand for themselves, a backslash with a number, or with g and a number in angle brackets, stands for that part of what is replaced (0 for all of it), two backslashes for one, a backslash with one of the letters a, b, f, n, r, t and v for a control character, a backslash with three octal digits, or with a zero and at most one octal digit that no other follows, for the character of that number, and a backslash before a character that is neither a letter nor a digit for itself. A backslash at the end, the number of a part that does not exist, an octal number above 255 and a backslash before another letter are refused, even if there is nothing to replace.", "quantifier": "all replacements made of such parts, all texts and bytes", "why_tests_cant": "replacements combine these parts in any order, and numbers run into digits that follow", "anchors": ["pytermor/util/string_filter.py: apply_filters (documentation)", "pytermor/util/string_filter.py: StringFilter.apply", "pytermor/util/string_filter.py: ReplaceSGR, ReplaceCSI, VisualuzeWhitespace, ReplaceNonAsciiBytes"]}
{"id": "C112", "title": "Underlined characters", "statement": "In binary mode exactly the bytes of escape sequences after the ESC character are underlined, in both columns and with any options, unless escape sequences are ignored. In text mode exactly the details next to the markers of control characters and escape sequences are: none without -m, the letter or the names of the parameters with -m, the code or the bytes after ESC with -mm.", "quantifier": "all inputs and options, any number of columns", "why_tests_cant": "styles of the sequences in the input are copied to markers with --color-markers and could switch underlining on or off; sequences may be cut by rows and by parts read", "anchors": ["README.md: ANSI escape sequences", "kolombos/byteio/template/template_escape.py", "kolombos/byteio/template/template_escape_sgr.py", "kolombos/byteio/template/template_control.py"]}
{"id": "C113", "title": "Different inputs look different", "statement": "With all details (-mm) and nothing ignored, two inputs in text mode without binary data that look the same, in characters and styles, are the same bytes; binary data hides only the values of the bytes displayed as such. In binary mode the characters alone suffice, with any options and even if the numbers of columns differ.", "quantifier": "all pairs of inputs, however they are divided into parts, all other options", "why_tests_cant": "two inputs that collide would have to be guessed; symbols are also ordinary characters that may occur in the input", "anchors": ["README.md: Examples", "kolombos/byteio/template/template_control.py", "kolombos/byteio/template/template_escape.py", "kolombos/byteio/template/template_utf8.py", "kolombos/byteio/formatter/text.py", "kolombos/byteio/formatter/binary.py"]}
{"id": "C114", "title": "A limit shows the beginning of the display", "statement": "With --max-lines n in text mode the first n lines of the display without the option are shown; in binary mode all bytes before the n-th line feed are displayed as without it. With --max-bytes n in text mode all lines complete within the first n bytes are displayed as without it, followed by at most one more line.", "quantifier": "all inputs from files or standard input, however they are divided into parts, all n > 0, all other options, wherever the limit is on the command line", "why_tests_cant": "relates two runs of the program for unbounded inputs; the outcome depends on what follows the limit, on cut sequences and on the division into parts", "anchors": ["kolombos/byteio/reader.py: Reader.read", "kolombos/app.py: _parse_args", "kolombos/byteio/formatter/text.py", "kolombos/byteio/formatter/binary.py"]}
{"id": "C115", "title": "Options about labels and separators change nothing else", "statement": "With --no-line-numbers the display in text mode is the one without it, less the number and the bar in front of every line. With --no-separators it is the one without it, less the characters that enclose sequences. With --no-offsets the rows in binary mode are the same, without offset, bar and the last line, and with a blank for the bar between the columns. With --decimal-offsets and a given number of columns, only the figures of the offsets differ.", "quantifier": "all inputs from files or standard input, however they are divided into parts, all other options except debugging, wherever the option is on the command line", "why_tests_cant": "relates two runs of the program for unbounded inputs; separators have to be told apart from the same characters in the input, and characters are lost at the end of incomplete lines", "anchors": ["kolombos/byteio/formatter/text.py", "kolombos/byteio/formatter/binary.py", "kolombos/byteio/template/template_escape.py", "kolombos/settings.py"]}
{"id": "C116", "title": "Options that only colour", "statement": "Focusing a class or colouring markers leaves every character of the display at its place: only the style of pieces of the class (of SGR sequences of the input) becomes another one, and the symbol of a space becomes a dot if whitespace is focused; the text that can be copied from the screen is otherwise the same. In binary mode the same holds for ignoring a class, which makes places of pieces of the class dim grey and crosses, and for decoding, which replaces only symbols of UTF-8 bytes.", "quantifier": "all inputs from files or standard input, however they are divided into parts, all other options except debugging, wherever the option is on the command line", "why_tests_cant": "relates two runs of the program place by place for unbounded inputs", "anchors": ["kolombos/byteio/template/template.py", "kolombos/byteio/template/template_escape.py", "kolombos/byteio/template/registry.py", "kolombos/byteio/formatter/binary.py", "kolombos/settings.py"]}
{"id": "C117", "title": "Details are all that --marker adds", "statement": "In text mode, the display with --marker at any level is the display without it, plus details: what is underlined, the separators, and the dots between SGR codes. Taking these away gives exactly the characters and styles of the display without the option, and nothing of the latter looks like a detail, whatever the input contains.", "quantifier": "all inputs from files or standard input, however they are divided into parts, all levels, all other options except debugging, wherever the option is on the command line", "why_tests_cant": "relates two runs of the program for unbounded inputs; details have to be told apart from the same characters in the input and from copied styles, and part of the details is missing at the end of incomplete lines", "anchors": ["kolombos/byteio/template/template_control.py", "kolombos/byteio/template/template_escape.py", "kolombos/byteio/template/template_escape_sgr.py", "kolombos/byteio/formatter/text.py", "kolombos/settings.py"]}
{"id": "C118", "title": "Debug messages report the pieces", "statement": "With -DD the message about each chunk is followed by one message for every piece of it (character, run of characters, escape sequence), in order, each with the offset of the piece, the number of its kind, its class and its length (with -DDD its bytes); after the last chunk a message reports the end of the input at the number of bytes read, and another that the input is closed. Messages before and after those about the pieces report what is in the buffer of the parser: the chunk, and then nothing.", "quantifier": "every sequence of chunks, setting and source", "why_tests_cant": "the pieces and their offsets depend on how the bytes around them were matched, in every chunk", "anchors": ["kolombos/byteio/parser/parser.py: Parser._debug_print_match_segments", "kolombos/byteio/parser/parser.py: Parser.parse", "kolombos/byteio/reader.py: Reader.read", "kolombos/byteio/parser/buffer.py: ParserBuffer.append_raw"]}
{"id": "C119", "title": "The numbers in debug messages add up", "statement": "With -DD the messages report how many bytes are parsed, how many wait in the queue, and how many are taken from it: the number in the queue is always the number of bytes parsed minus the number of bytes taken, and the bytes taken are shown next, before others are taken, that many of them, in a row whose offset is the number of bytes shown before.", "quantifier": "every input, setting and source, however reading ends", "why_tests_cant": "an invariant over all messages of a run, whatever the input, the columns and the division into chunks", "anchors": ["kolombos/byteio/segment/buffer.py: SegmentBuffer._detach", "kolombos/byteio/segment/buffer.py: SegmentBuffer.detach_bytes", "kolombos/byteio/segment/buffer.py: SegmentBuffer.preview", "kolombos/byteio/formatter/binary.py: BinaryFormatter.format", "kolombos/byteio/parser/parser.py: Parser.parse"]}
{"id": "C120", "title": "Debug messages report the limits", "statement": "With -DD and a limit of bytes or lines there is a message for every chunk up to the one in which a limit is reached, with its number, offset and length; if a limit cuts the chunk, a message with the offset and the limit (with -DDD another with the number of bytes that are left, and these bytes); then messages about the pieces of what is left only, and the end of the input is reported at the number of bytes that are left in all.", "quantifier": "every sequence of chunks, setting and source, all limits", "why_tests_cant": "limits fall anywhere in chunks and depend on all earlier chunks; both may cut the same chunk", "anchors": ["kolombos/byteio/reader.py: Reader.read", "kolombos/byteio/parser/parser.py: Parser.parse", "kolombos/console.py: Console.printd"]}
{"id": "C121", "title": "Own formatters of time intervals", "statement": "A formatter can be created from any units, and its max_len is the greatest length of its texts. After own formatters have been registered, format_time_delta writes an interval with the formatter of the greatest length that is allowed, the last registered of these, and raises if there is none; so the text is never longer than asked for.", "quantifier": "all lists of formatters with any units; all lengths and all rational numbers of seconds", "why_tests_cant": "formatters are given by lists of units of any length; which one is used depends on all registered before", "anchors": ["pytermor/util/time_delta.py: TimeDeltaFormatter._compute_max_len", "pytermor/util/time_delta.py: _TimeDeltaFormatterRegistry", "pytermor/util/time_delta.py: format_time_delta"]}
{"id": "C122", "title": "Layout of the help page", "statement": "For every terminal of at least 22 columns, with and without styles, the page of --help begins with a heading; below every heading there is an indented line; every line that is not indented, such as a heading or a remark, stands below an empty line. The headings are the same for every width, in the same order: usage, input, operating mode, character class options, generic options, text mode options, binary mode options, examples.", "quantifier": "all widths from 22 columns on, with and without styles", "why_tests_cant": "the lines are wrapped anew for every width; tests look at few widths", "anchors": ["kolombos/arghelp.py: AppArgumentParser", "kolombos/arghelp.py: CustomHelpFormatter._format_action_invocation"]}
{"id": "C123", "title": "Spans compare by what they do", "statement": "Two spans compare equal if and only if they wrap every text alike, by calling them or with wrap(). Spans made of names, codes and sequences are equal if and only if their opening sequences are; a span that returns some text unchanged is equal to the empty span and returns every text unchanged.", "quantifier": "all spans, all texts", "why_tests_cant": "there are unboundedly many sequences, some of which are written in a special way (reset, empty sequence)", "anchors": ["pytermor/ansi.py: Span.__eq__", "pytermor/ansi.py: Span.__call__", "pytermor/ansi.py: Span.wrap"]}
{"id": "C124", "title": "Contents of the queue in debug messages", "statement": "With -DDDD a message about the queue tells its whole contents: the number of bytes that wait, the number of characters of the sequences among them, every byte in two figures and every sequence in square brackets, in their order, and the sequences that are in effect; with -DDD it tells the same for the first five elements, with two dots if there are more. The bytes can be read back from the words of the message.", "quantifier": "all states of the queue, all settings with at least -DDD", "why_tests_cant": "the states are built from arbitrary input; tests look at few messages", "anchors": ["kolombos/byteio/segment/buffer.py: SegmentBuffer.preview", "kolombos/byteio/segment/buffer.py: SegmentBuffer._preview_collect"]}
