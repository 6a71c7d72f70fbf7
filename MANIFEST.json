{
 "claims": [
  {
   "property": "C01",
   "status": "proved",
   "theorems": [
    "Kolombos.C01_scan",
    "Kolombos.C01_parse",
    "Kolombos.C01_shown"
   ],
   "note": "every byte sequence; matches of the modelled regular expression"
  },
  {
   "property": "C02",
   "status": "proved",
   "theorems": [
    "Kolombos.C02_utf8_piece"
   ],
   "note": "against String.utf8EncodeChar"
  },
  {
   "property": "C03",
   "status": "proved",
   "theorems": [
    "Kolombos.C03_text"
   ],
   "note": "every list of characters"
  },
  {
   "property": "C04",
   "status": "partial",
   "theorems": [
    "Kolombos.C04_negation",
    "Kolombos.C04_partial"
   ],
   "note": "false as stated (ff c3 a9 is one binary run); exact characterisation (iff) proved instead"
  },
  {
   "property": "C05",
   "status": "proved",
   "theorems": [
    "Kolombos.C05_byte_class"
   ],
   "note": ""
  },
  {
   "property": "C06",
   "status": "proved",
   "theorems": [
    "Kolombos.C06_escape_iff",
    "Kolombos.C06_escape_first"
   ],
   "note": ""
  },
  {
   "property": "C07",
   "status": "proved",
   "theorems": [
    "Kolombos.C07_csi_marker"
   ],
   "note": ""
  },
  {
   "property": "C08",
   "status": "partial",
   "theorems": [
    "Kolombos.C08_negation",
    "Kolombos.C08_status_partial"
   ],
   "note": "false as stated: an SGR sequence with a private parameter (ESC[?1m) makes the run fail; proved for all other inputs"
  },
  {
   "property": "C09",
   "status": "proved",
   "theorems": [
    "Kolombos.C09_errors",
    "Kolombos.C09_status"
   ],
   "note": ""
  },
  {
   "property": "C10",
   "status": "proved",
   "theorems": [
    "Kolombos.C10_queue",
    "Kolombos.C10_no_error"
   ],
   "note": "every history of operations"
  },
  {
   "property": "C100",
   "status": "partial",
   "theorems": [
    "Kolombos.C100_same",
    "Kolombos.C100_prefix",
    "Kolombos.C100_usual",
    "Kolombos.C100_failure_partial",
    "Kolombos.C100_encoding",
    "Kolombos.C100_negation"
   ],
   "note": "false as stated: the hint is not printed if the text is rejected again when the handler flushes the buffers; everything else is proved for every behaviour of the output"
  },
  {
   "property": "C101",
   "status": "proved",
   "theorems": [
    "Kolombos.C101_interrupt"
   ],
   "note": "no debug messages; the interruption happens in a call of print; seekable files without control characters in the name; at least one column in binary mode"
  },
  {
   "property": "C102",
   "status": "partial",
   "theorems": [
    "Kolombos.C102_known_partial",
    "Kolombos.C102_separator",
    "Kolombos.C102_negation"
   ],
   "note": "false as stated: with line numbers or offsets every line has the separator, so that nothing is displayed; proved: the run is the usual one if the encoding has all characters of the output"
  },
  {
   "property": "C103",
   "status": "partial",
   "theorems": [
    "Kolombos.C103_meaning",
    "Kolombos.C103_complete",
    "Kolombos.C103_case",
    "Kolombos.C103_grey_partial",
    "Kolombos.C103_negation",
    "Kolombos.C103_shown",
    "Kolombos.C103_background",
    "Kolombos.C103_flipped",
    "Kolombos.C103_setter",
    "Kolombos.C103_inherited",
    "Kolombos.C103_removed",
    "Kolombos.C103_span_partial",
    "Kolombos.C103_negation_gray"
   ],
   "note": "false as stated in two places: grey_63 is a violet, and gray is a colour for spans but is refused for styles; everything else is proved"
  },
  {
   "property": "C104",
   "status": "partial",
   "theorems": [
    "Kolombos.C104_terminal",
    "Kolombos.C104_tmux_partial",
    "Kolombos.C104_plain",
    "Kolombos.C104_others",
    "Kolombos.C104_off_partial",
    "Kolombos.C104_negation",
    "Kolombos.C104_negation_tmux"
   ],
   "note": "false as stated: with force_styles=None the debug and the HTML renderer still write styles, and a subclass that has been set up itself is no longer affected by SgrRenderer.set_up; the effect of every history is described exactly. C104_tmux_partial has the restrictions of C80"
  },
  {
   "property": "C105",
   "status": "partial",
   "theorems": [
    "Kolombos.C105_restored",
    "Kolombos.C105_during",
    "Kolombos.C105_no_terminal",
    "Kolombos.C105_exception",
    "Kolombos.C105_result",
    "Kolombos.C105_keys_partial",
    "Kolombos.C105_negation",
    "Kolombos.C105_negation_early"
   ],
   "note": "false as stated: of a key that sends several characters (a cursor key) the first is returned and the next calls return the others without waiting, and keys pressed before the call are returned; the result of every call is described exactly (C105_result). Restoring assumes that the terminal accepts the attributes"
  },
  {
   "property": "C106",
   "status": "proved",
   "theorems": [
    "Kolombos.C106_width",
    "Kolombos.C106_redirected",
    "Kolombos.C106_columns",
    "Kolombos.C106_program",
    "Kolombos.C106_pipe"
   ],
   "note": "for terminals that report a positive width; with older versions of python a width of 0 is taken as it is"
  },
  {
   "property": "C107",
   "status": "proved",
   "theorems": [
    "Kolombos.C107_text",
    "Kolombos.C107_binary",
    "Kolombos.C107_stdin_text",
    "Kolombos.C107_stdin_binary",
    "Kolombos.C107_text_fails",
    "Kolombos.C107_binary_fails",
    "Kolombos.C107_status",
    "Kolombos.C107_stdin_text_fails",
    "Kolombos.C107_stdin_binary_fails",
    "Kolombos.C107_stdin_status"
   ],
   "note": "debug level 0"
  },
  {
   "property": "C108",
   "status": "proved",
   "theorems": [
    "Kolombos.C108_sequence",
    "Kolombos.C108_sequence_form",
    "Kolombos.C108_span",
    "Kolombos.C108_color",
    "Kolombos.C108_value",
    "Kolombos.C108_style",
    "Kolombos.C108_style_form",
    "Kolombos.C108_html",
    "Kolombos.C108_terminal",
    "Kolombos.C108_terminal_kinds"
   ],
   "note": "C108_terminal_kinds: a witness for the limit named in the statement"
  },
  {
   "property": "C109",
   "status": "proved",
   "theorems": [
    "Kolombos.C109_shown",
    "Kolombos.C109_names"
   ],
   "note": "names of ASCII characters"
  },
  {
   "property": "C11",
   "status": "proved",
   "theorems": [
    "Kolombos.C11_detach_bytes"
   ],
   "note": ""
  },
  {
   "property": "C110",
   "status": "partial",
   "theorems": [
    "Kolombos.C110_length_partial",
    "Kolombos.C110_scale_partial",
    "Kolombos.C110_defined",
    "Kolombos.C110_negation"
   ],
   "note": "false as stated: one character more just below powers of ten; proved otherwise, and that it is never more than one; C110_defined: max_len fails if there are no prefixes"
  },
  {
   "property": "C111",
   "status": "proved",
   "theorems": [
    "Kolombos.C111_csi",
    "Kolombos.C111_sgr",
    "Kolombos.C111_space",
    "Kolombos.C111_bytes",
    "Kolombos.C111_refused"
   ],
   "note": "python int() is a parameter that reads decimal numbers"
  },
  {
   "property": "C112",
   "status": "proved",
   "theorems": [
    "Kolombos.C112_binary",
    "Kolombos.C112_text"
   ],
   "note": "no debug messages; the rule of README.md holds in binary mode; in text mode the details of control characters are underlined, too"
  },
  {
   "property": "C113",
   "status": "partial",
   "theorems": [
    "Kolombos.C113_text",
    "Kolombos.C113_unique_partial",
    "Kolombos.C113_binary",
    "Kolombos.C113_negation",
    "Kolombos.C113_negation_brief"
   ],
   "note": "false as stated for a control character at the very end, whose code is not displayed (C113_negation); proved otherwise: C113_text for all inputs up to that byte and binary data; with fewer details different sequences may look the same (C113_negation_brief)"
  },
  {
   "property": "C114",
   "status": "partial",
   "theorems": [
    "Kolombos.C114_text_partial",
    "Kolombos.C114_stdin_text_partial",
    "Kolombos.C114_binary",
    "Kolombos.C114_stdin_binary",
    "Kolombos.C114_bytes",
    "Kolombos.C114_stdin_bytes",
    "Kolombos.C114_negation"
   ],
   "note": "false as stated in text mode: the n-th line lacks the symbol of its line feed and details at its end, and is not shown if it is empty (C114_negation); the exact difference is proved for every input; without debugging"
  },
  {
   "property": "C115",
   "status": "proved",
   "theorems": [
    "Kolombos.C115_numbers",
    "Kolombos.C115_stdin_numbers",
    "Kolombos.C115_separators",
    "Kolombos.C115_stdin_separators",
    "Kolombos.C115_offsets",
    "Kolombos.C115_stdin_offsets",
    "Kolombos.C115_decimal",
    "Kolombos.C115_stdin_decimal"
   ],
   "note": "without debugging; number and bar of lines, separators and figures of offsets are defined in Spec/Labels.lean"
  },
  {
   "property": "C116",
   "status": "proved",
   "theorems": [
    "Kolombos.C116_text",
    "Kolombos.C116_stdin_text",
    "Kolombos.C116_binary",
    "Kolombos.C116_stdin_binary"
   ],
   "note": "without debugging; what an option may do to a character is defined in Spec/Colouring.lean"
  },
  {
   "property": "C117",
   "status": "proved",
   "theorems": [
    "Kolombos.C117_text",
    "Kolombos.C117_stdin_text"
   ],
   "note": "without debugging; IsDetail is defined in Spec/Details.lean"
  },
  {
   "property": "C118",
   "status": "proved",
   "theorems": [
    "Kolombos.C118_messages",
    "Kolombos.C118_screen"
   ],
   "note": "on the trace of messages and writes, and on the lines of the screen; runs that read the input to its end without limits (with limits: C120); what a message says after the bytes about how the piece is shown is left open; for an escape sequence between separators the class is left out, as the message begins with the separator"
  },
  {
   "property": "C119",
   "status": "partial",
   "theorems": [
    "Kolombos.C119_counts_partial",
    "Kolombos.C119_text_partial",
    "Kolombos.C119_negation"
   ],
   "note": "proved in binary mode with at least one column; false in text mode, where an escape sequence without details counts as one byte in the queue (C119_negation), proved there for input without ESC, or with details and without control characters (C119_text_partial); for file names without control characters"
  },
  {
   "property": "C12",
   "status": "proved",
   "theorems": [
    "Kolombos.C12_split"
   ],
   "note": ""
  },
  {
   "property": "C120",
   "status": "partial",
   "theorems": [
    "Kolombos.C120_messages_partial",
    "Kolombos.C120_lines_partial",
    "Kolombos.C120_screen_partial",
    "Kolombos.C120_negation"
   ],
   "note": "on the trace of messages and writes, and on the lines of the screen; proved exactly, with one deviation: if the limit of bytes cuts a chunk, the end of the input is reported at the offset of that chunk and before its pieces (C120_negation); without a limit of bytes as stated (C120_lines_partial)"
  },
  {
   "property": "C121",
   "status": "partial",
   "theorems": [
    "Kolombos.C121_choice",
    "Kolombos.C121_attained_partial",
    "Kolombos.C121_negation",
    "Kolombos.C121_negation_asked",
    "Kolombos.C121_negation_created"
   ],
   "note": "false as stated: max_len is computed from some intervals only, so texts of own formatters can be longer than it and than asked for (C121_negation, C121_negation_asked; for the preset formatters see C49), and some formatters cannot be created at all (C121_negation_created); proved: which formatter is used after any registrations, and that max_len is the length of some text"
  },
  {
   "property": "C122",
   "status": "proved",
   "theorems": [
    "Kolombos.C122_layout",
    "Kolombos.C122_headings"
   ],
   "note": "lines of the page as in C92; Spec/HelpLayout says what may follow what"
  },
  {
   "property": "C123",
   "status": "proved",
   "theorems": [
    "Kolombos.C123_wrap",
    "Kolombos.C123_made"
   ],
   "note": "spans are pairs of sequences; comparison with objects of other types is not modelled"
  },
  {
   "property": "C124",
   "status": "proved",
   "theorems": [
    "Kolombos.C124_message",
    "Kolombos.C124_read"
   ],
   "note": "on the message for a state of the queue, as it appears on a terminal; words, reading of words and numbers are defined in Spec/DebugQueue"
  },
  {
   "property": "C13",
   "status": "proved",
   "theorems": [
    "Kolombos.C13_binary",
    "Kolombos.C13_text"
   ],
   "note": "inputs without SGR sequences with non-numeric parameters (those end the run, C09)"
  },
  {
   "property": "C14",
   "status": "proved",
   "theorems": [
    "Kolombos.C14_cells"
   ],
   "note": ""
  },
  {
   "property": "C15",
   "status": "proved",
   "theorems": [
    "Kolombos.C15_active"
   ],
   "note": ""
  },
  {
   "property": "C16",
   "status": "proved",
   "theorems": [
    "Kolombos.C16_consistent"
   ],
   "note": ""
  },
  {
   "property": "C17",
   "status": "proved",
   "theorems": [
    "Kolombos.C17_geometry"
   ],
   "note": ""
  },
  {
   "property": "C18",
   "status": "proved",
   "theorems": [
    "Kolombos.C18_hex"
   ],
   "note": ""
  },
  {
   "property": "C19",
   "status": "proved",
   "theorems": [
    "Kolombos.C19_offsets"
   ],
   "note": ""
  },
  {
   "property": "C20",
   "status": "partial",
   "theorems": [
    "Kolombos.C20_negation",
    "Kolombos.C20_label_partial",
    "Kolombos.C20_injective_partial",
    "Kolombos.C20_exact_partial"
   ],
   "note": "false as stated: labels are cut to 8 characters; C20_exact_partial: the label denotes the offset exactly when it is below 10^6 (hex) / 10^8 (decimal)"
  },
  {
   "property": "C21",
   "status": "proved",
   "theorems": [
    "Kolombos.C21_held",
    "Kolombos.C21_end"
   ],
   "note": ""
  },
  {
   "property": "C22",
   "status": "proved",
   "theorems": [
    "Kolombos.C22_prefix"
   ],
   "note": ""
  },
  {
   "property": "C23",
   "status": "partial",
   "theorems": [
    "Kolombos.C23_negation",
    "Kolombos.C23_terminates_partial",
    "Kolombos.C23_zero_partial"
   ],
   "note": "false as stated (negative columns, or 0 columns with a cut sequence, loop forever); exact characterisation (iff) of termination; with 0 columns nothing is displayed"
  },
  {
   "property": "C24",
   "status": "partial",
   "theorems": [
    "Kolombos.C24_negation",
    "Kolombos.C24_fits_partial",
    "Kolombos.C24_positive_partial",
    "Kolombos.C24_narrow_partial"
   ],
   "note": "false as stated on terminals narrower than 48 (39) columns; exact thresholds proved"
  },
  {
   "property": "C25",
   "status": "proved",
   "theorems": [
    "Kolombos.C25_lines"
   ],
   "note": ""
  },
  {
   "property": "C26",
   "status": "partial",
   "theorems": [
    "Kolombos.C26_negation",
    "Kolombos.C26_view_partial",
    "Kolombos.C26_complete_partial"
   ],
   "note": "false as stated: details of a control character (or the closing separator of an escape sequence) at the very end of an input without final line feed are not printed; exact description of the printed lines proved, and the claim itself for inputs that end with a line feed and for -m 0"
  },
  {
   "property": "C27",
   "status": "proved",
   "theorems": [
    "Kolombos.C27_prompt",
    "Kolombos.C27_end"
   ],
   "note": ""
  },
  {
   "property": "C28",
   "status": "partial",
   "theorems": [
    "Kolombos.C28_negation",
    "Kolombos.C28_clean_partial"
   ],
   "note": "false as stated: C1 controls encoded in UTF-8 (C2 80 - C2 9F) are printed; proved that nothing else gets through"
  },
  {
   "property": "C29",
   "status": "proved",
   "theorems": [
    "Kolombos.C29_text",
    "Kolombos.C29_binary"
   ],
   "note": "complete displayable inputs"
  },
  {
   "property": "C30",
   "status": "proved",
   "theorems": [
    "Kolombos.C30_text",
    "Kolombos.C30_binary"
   ],
   "note": "complete displayable inputs"
  },
  {
   "property": "C31",
   "status": "proved",
   "theorems": [
    "Kolombos.C31_controls"
   ],
   "note": ""
  },
  {
   "property": "C32",
   "status": "partial",
   "theorems": [
    "Kolombos.C32_negation",
    "Kolombos.C32_offset_partial",
    "Kolombos.C32_exact_partial"
   ],
   "note": "false as stated: a control character with details counts as many bytes as its code, an escape sequence with -m 0 counts as one byte; exact sum proved, and the claim itself for inputs without control characters with -m 1 or more"
  },
  {
   "property": "C33",
   "status": "proved",
   "theorems": [
    "Kolombos.C33_text",
    "Kolombos.C33_binary",
    "Kolombos.C33_faithful"
   ],
   "note": "complete displayable inputs"
  },
  {
   "property": "C34",
   "status": "partial",
   "theorems": [
    "Kolombos.C34_stable",
    "Kolombos.C34_negation",
    "Kolombos.C34_partial"
   ],
   "note": "reading the mode is idempotent; the stated priority is false for one combination (negation), proved otherwise"
  },
  {
   "property": "C35",
   "status": "proved",
   "theorems": [
    "Kolombos.C35_get",
    "Kolombos.C35_set"
   ],
   "note": ""
  },
  {
   "property": "C36",
   "status": "proved",
   "theorems": [
    "Kolombos.C36_max_bytes"
   ],
   "note": ""
  },
  {
   "property": "C37",
   "status": "proved",
   "theorems": [
    "Kolombos.C37_limits",
    "Kolombos.C37_max_lines"
   ],
   "note": ""
  },
  {
   "property": "C38",
   "status": "proved",
   "theorems": [
    "Kolombos.C38_delivery",
    "Kolombos.C38_file"
   ],
   "note": ""
  },
  {
   "property": "C39",
   "status": "proved",
   "theorems": [
    "Kolombos.C39_close"
   ],
   "note": ""
  },
  {
   "property": "C40",
   "status": "partial",
   "theorems": [
    "Kolombos.C40_negation",
    "Kolombos.C40_text_partial",
    "Kolombos.C40_binary_partial",
    "Kolombos.C40_ascii_partial",
    "Kolombos.C40_lines_partial"
   ],
   "note": "false as stated (a cut inside an escape sequence changes the display); proved for all chunkings whose cuts do not fall into an escape or UTF-8 sequence or a run of other 8-bit bytes, in particular for all chunkings of 7-bit input without ESC and for chunks ending with line feeds"
  },
  {
   "property": "C41",
   "status": "proved",
   "theorems": [
    "Kolombos.C41_assemble",
    "Kolombos.C41_noop",
    "Kolombos.C41_eq",
    "Kolombos.C41_hash",
    "Kolombos.C41_add"
   ],
   "note": ""
  },
  {
   "property": "C42",
   "status": "proved",
   "theorems": [
    "Kolombos.C42_closing",
    "Kolombos.C42_span",
    "Kolombos.C42_default",
    "Kolombos.C42_codes",
    "Kolombos.C42_add"
   ],
   "note": "against an independent terminal specification (Spec/Terminal.lean)"
  },
  {
   "property": "C43",
   "status": "proved",
   "theorems": [
    "Kolombos.C43_strip",
    "Kolombos.C43_appears",
    "Kolombos.C43_pad"
   ],
   "note": ""
  },
  {
   "property": "C44",
   "status": "partial",
   "theorems": [
    "Kolombos.C44_negation",
    "Kolombos.C44_partial"
   ],
   "note": "false as stated: the first occurrence of the rest is searched; proved: what happens for every rest, and exactly when it is left"
  },
  {
   "property": "C45",
   "status": "partial",
   "theorems": [
    "Kolombos.C45_negation",
    "Kolombos.C45_partial"
   ],
   "note": "false as stated: every two references compare equal (also proved), so only one direction holds"
  },
  {
   "property": "C46",
   "status": "proved",
   "theorems": [
    "Kolombos.C46_status"
   ],
   "note": ""
  },
  {
   "property": "C47",
   "status": "proved",
   "theorems": [
    "Kolombos.C47_nearest",
    "Kolombos.C47_cacheless"
   ],
   "note": ""
  },
  {
   "property": "C48",
   "status": "proved",
   "theorems": [
    "Kolombos.C48_fits",
    "Kolombos.C48_layout",
    "Kolombos.C48_single"
   ],
   "note": ""
  },
  {
   "property": "C49",
   "status": "proved",
   "theorems": [
    "Kolombos.C49_fits",
    "Kolombos.C49_short"
   ],
   "note": "exact arithmetic instead of floats"
  },
  {
   "property": "C50",
   "status": "proved",
   "theorems": [
    "Kolombos.C50_chars"
   ],
   "note": ""
  },
  {
   "property": "C51",
   "status": "proved",
   "theorems": [
    "Kolombos.C51_text",
    "Kolombos.C51_binary"
   ],
   "note": ""
  },
  {
   "property": "C52",
   "status": "proved",
   "theorems": [
    "Kolombos.C52_split",
    "Kolombos.C52_join"
   ],
   "note": ""
  },
  {
   "property": "C53",
   "status": "partial",
   "theorems": [
    "Kolombos.C53_negation",
    "Kolombos.C53_ranges_partial",
    "Kolombos.C53_faithful",
    "Kolombos.C53_injective"
   ],
   "note": "false as stated: the hue can exceed 359 (0xff0001); proved with the bound 360; exact arithmetic instead of floats"
  },
  {
   "property": "C54",
   "status": "proved",
   "theorems": [
    "Kolombos.C54_text"
   ],
   "note": "exact arithmetic instead of floats"
  },
  {
   "property": "C55",
   "status": "proved",
   "theorems": [
    "Kolombos.C55_settings",
    "Kolombos.C55_help",
    "Kolombos.C55_order"
   ],
   "note": "from options already divided from the argument strings; the division itself is C90"
  },
  {
   "property": "C56",
   "status": "proved",
   "theorems": [
    "Kolombos.C56_text",
    "Kolombos.C56_binary",
    "Kolombos.C56_usage",
    "Kolombos.C56_missing",
    "Kolombos.C56_stdin_text",
    "Kolombos.C56_stdin_binary"
   ],
   "note": "debug level 0"
  },
  {
   "property": "C57",
   "status": "proved",
   "theorems": [
    "Kolombos.C57_demo",
    "Kolombos.C57_text"
   ],
   "note": "debug level 0"
  },
  {
   "property": "C58",
   "status": "partial",
   "theorems": [
    "Kolombos.C58_legend",
    "Kolombos.C58_version",
    "Kolombos.C58_explained_partial",
    "Kolombos.C58_binary_partial",
    "Kolombos.C58_negation"
   ],
   "note": "false as stated: the markers of nF and Fp sequences are only shown inverse in the legend, those of the other escape sequences only plain, the mark of ignored bytes not at all; proved for all other cases, in both modes, at all levels of details, with and without focus, except SGR markers coloured by the input"
  },
  {
   "property": "C59",
   "status": "proved",
   "theorems": [
    "Kolombos.C59_shown",
    "Kolombos.C59_stable",
    "Kolombos.C59_plain"
   ],
   "note": "colours of 24 bits with codes that terminals know; texts without escape characters"
  },
  {
   "property": "C60",
   "status": "proved",
   "theorems": [
    "Kolombos.C60_palette",
    "Kolombos.C60_usable",
    "Kolombos.C60_close"
   ],
   "note": "the names of the presets are the subject of C103"
  },
  {
   "property": "C61",
   "status": "proved",
   "theorems": [
    "Kolombos.C61_inherit",
    "Kolombos.C61_autopick"
   ],
   "note": ""
  },
  {
   "property": "C62",
   "status": "partial",
   "theorems": [
    "Kolombos.C62_negation",
    "Kolombos.C62_partial",
    "Kolombos.C62_exact_partial"
   ],
   "note": "false as stated: attributes do not take part in the comparison; proved: equal styles are rendered the same exactly if their attributes are the same too"
  },
  {
   "property": "C63",
   "status": "partial",
   "theorems": [
    "Kolombos.C63_values_partial",
    "Kolombos.C63_sum_partial",
    "Kolombos.C63_negation",
    "Kolombos.C63_negation_format"
   ],
   "note": "false as stated: a + b changes a, and formatting changes the text and all texts it was added to; proved for histories with append, prepend and plain formatting"
  },
  {
   "property": "C64",
   "status": "partial",
   "theorems": [
    "Kolombos.C64_negation",
    "Kolombos.C64_partial"
   ],
   "note": "false as stated: zero is shown as nothing; proved for everything else"
  },
  {
   "property": "C65",
   "status": "proved",
   "theorems": [
    "Kolombos.C65_display",
    "Kolombos.C65_quiet",
    "Kolombos.C65_rows"
   ],
   "note": "seekable or standard input, names without control characters, at least one column in binary mode (see C67, C66, C23); for the whole program with the table of settings see C89"
  },
  {
   "property": "C66",
   "status": "partial",
   "theorems": [
    "Kolombos.C66_messages_partial",
    "Kolombos.C66_negation"
   ],
   "note": "false as stated: the name of the file is printed raw; proved for names without control characters"
  },
  {
   "property": "C67",
   "status": "partial",
   "theorems": [
    "Kolombos.C67_source_partial",
    "Kolombos.C67_unseekable",
    "Kolombos.C67_negation"
   ],
   "note": "false as stated: a named source that cannot tell its position makes the run fail; proved for the others"
  },
  {
   "property": "C68",
   "status": "proved",
   "theorems": [
    "Kolombos.C68_chunks",
    "Kolombos.C68_rows",
    "Kolombos.C68_screen",
    "Kolombos.C68_rows_screen"
   ],
   "note": "on the trace of messages and writes, and on the lines of the screen (then: file names without control characters); chunks: runs that read the input to its end without limits; rows: binary mode with at least one column"
  },
  {
   "property": "C69",
   "status": "partial",
   "theorems": [
    "Kolombos.C69_lines_partial",
    "Kolombos.C69_screen_partial",
    "Kolombos.C69_exact_partial",
    "Kolombos.C69_screen_exact_partial",
    "Kolombos.C69_negation"
   ],
   "note": "false as stated: without details the messages show only the ESC of an escape sequence, with details as many zeros as its code instead of a control character; proved exactly so for every input (C69_exact_partial), hence as stated for input without ESC or with details and without control characters"
  },
  {
   "property": "C70",
   "status": "partial",
   "theorems": [
    "Kolombos.C70_length_partial",
    "Kolombos.C70_exact_partial",
    "Kolombos.C70_total",
    "Kolombos.C70_negation"
   ],
   "note": "false as stated: a number within half a per cent below a power of ten may get one character more; C70_exact_partial says exactly when, C70_total exactly when an error is raised; numbers are rational, arithmetic is exact"
  },
  {
   "property": "C71",
   "status": "proved",
   "theorems": [
    "Kolombos.C71_plain",
    "Kolombos.C71_exponent",
    "Kolombos.C71_zero"
   ],
   "note": "numbers are rational, arithmetic is exact"
  },
  {
   "property": "C72",
   "status": "proved",
   "theorems": [
    "Kolombos.C72_metric",
    "Kolombos.C72_binary",
    "Kolombos.C72_bytes",
    "Kolombos.C72_zero",
    "Kolombos.C72_beyond",
    "Kolombos.C72_outside",
    "Kolombos.C72_refused"
   ],
   "note": "numbers are rational, arithmetic is exact; units that are not empty and have no blanks at their ends"
  },
  {
   "property": "C73",
   "status": "partial",
   "theorems": [
    "Kolombos.C73_metric_partial",
    "Kolombos.C73_binary_partial",
    "Kolombos.C73_small_partial",
    "Kolombos.C73_negation"
   ],
   "note": "false as stated: values below one may be shown as nought (the documented example 1.26e-9 is); proved from one on, for both formatters, and below one an upper bound on the loss (C73_small_partial)"
  },
  {
   "property": "C74",
   "status": "partial",
   "theorems": [
    "Kolombos.C74_metric_partial",
    "Kolombos.C74_binary_partial",
    "Kolombos.C74_negation"
   ],
   "note": "false as stated: there is one character more exactly if the value at its scale is just below a power of ten; never more than one"
  },
  {
   "property": "C75",
   "status": "proved",
   "theorems": [
    "Kolombos.C75_groups"
   ],
   "note": "integers only"
  },
  {
   "property": "C76",
   "status": "partial",
   "theorems": [
    "Kolombos.C76_partial",
    "Kolombos.C76_exact_partial",
    "Kolombos.C76_negation"
   ],
   "note": "false as stated; C76_exact_partial says exactly when there is a blank: one character of room besides the digits and no rounding up to a power of ten"
  },
  {
   "property": "C77",
   "status": "proved",
   "theorems": [
    "Kolombos.C77_csi",
    "Kolombos.C77_sgr",
    "Kolombos.C77_csi_any",
    "Kolombos.C77_sgr_any"
   ],
   "note": ""
  },
  {
   "property": "C78",
   "status": "partial",
   "theorems": [
    "Kolombos.C78_partial",
    "Kolombos.C78_exact_partial",
    "Kolombos.C78_negation",
    "Kolombos.C78_again"
   ],
   "note": "false as stated: sequences with another final or with intermediate bytes are kept, and what is left may be a sequence again; proved for usual sequences, and that an escape character is left exactly if one begins no usual sequence"
  },
  {
   "property": "C79",
   "status": "partial",
   "theorems": [
    "Kolombos.C79_whitespace_partial",
    "Kolombos.C79_bytes_partial",
    "Kolombos.C79_filters_partial",
    "Kolombos.C79_negation"
   ],
   "note": "false as stated: with a backslash as replacement line feeds are lost; proved for replacements without backslashes"
  },
  {
   "property": "C80",
   "status": "partial",
   "theorems": [
    "Kolombos.C80_shown_partial",
    "Kolombos.C80_double",
    "Kolombos.C80_plain",
    "Kolombos.C80_negation",
    "Kolombos.C80_negation_state"
   ],
   "note": "false as stated: number signs in texts are not escaped, and a double underline is not ended; proved for texts without number signs, the end state without double underlines"
  },
  {
   "property": "C81",
   "status": "partial",
   "theorems": [
    "Kolombos.C81_shown_partial",
    "Kolombos.C81_negation",
    "Kolombos.C81_negation_class"
   ],
   "note": "false as stated: neither the text nor the class is escaped; proved for texts without < and & and classes without quotation marks"
  },
  {
   "property": "C82",
   "status": "partial",
   "theorems": [
    "Kolombos.C82_inverse_partial",
    "Kolombos.C82_exact_partial",
    "Kolombos.C82_negation"
   ],
   "note": "false as stated: without colours nothing is swapped; proved for different colours; the markup is that without inversion exactly if both colours are the same"
  },
  {
   "property": "C83",
   "status": "proved",
   "theorems": [
    "Kolombos.C83_marks"
   ],
   "note": "texts without escape characters"
  },
  {
   "property": "C84",
   "status": "proved",
   "theorems": [
    "Kolombos.C84_span",
    "Kolombos.C84_refused",
    "Kolombos.C84_presets"
   ],
   "note": "names with letters outside ASCII are refused or resolved as str.upper says; C84_refused is for ASCII names"
  },
  {
   "property": "C85",
   "status": "partial",
   "theorems": [
    "Kolombos.C85_text_partial",
    "Kolombos.C85_reset_partial",
    "Kolombos.C85_negation"
   ],
   "note": "false as stated: a sequence has length 0, so it counts as missing and is dropped; proved: the text is written as it is, with the reset if asked to"
  },
  {
   "property": "C86",
   "status": "partial",
   "theorems": [
    "Kolombos.C86_template_partial",
    "Kolombos.C86_negation",
    "Kolombos.C86_negation_lines"
   ],
   "note": "false as stated: a format that names a list raises ValueError, a comment of several lines is kept; proved for templates of words in ASCII without these; the text may contain braces that do not begin a part"
  },
  {
   "property": "C87",
   "status": "proved",
   "theorems": [
    "Kolombos.C87_legend"
   ],
   "note": "the variables are computed by the modelled generator from the modelled templates; each example starts from default settings"
  },
  {
   "property": "C88",
   "status": "proved",
   "theorems": [
    "Kolombos.C88_table",
    "Kolombos.C88_derived",
    "Kolombos.C88_none",
    "Kolombos.C88_program",
    "Kolombos.C88_program_derived"
   ],
   "note": "the repr of the bound method set_default_read_mode, shown with the fourth -D, is a parameter"
  },
  {
   "property": "C89",
   "status": "proved",
   "theorems": [
    "Kolombos.C89_status",
    "Kolombos.C89_quiet",
    "Kolombos.C89_display",
    "Kolombos.C89_failure",
    "Kolombos.C89_trace",
    "Kolombos.C89_negation_name"
   ],
   "note": "the traceback is a parameter; the negation shows that the condition on file names is needed; for sources that are not seekable see C67"
  },
  {
   "property": "C90",
   "status": "proved",
   "theorems": [
    "Kolombos.C90_spelling",
    "Kolombos.C90_accepted",
    "Kolombos.C90_unknown",
    "Kolombos.C90_ambiguous",
    "Kolombos.C90_program"
   ],
   "note": "argparse of Python 3.11; int() and \\d outside ASCII are parameters"
  },
  {
   "property": "C91",
   "status": "partial",
   "theorems": [
    "Kolombos.C91_words_partial",
    "Kolombos.C91_ink",
    "Kolombos.C91_wide",
    "Kolombos.C91_negation",
    "Kolombos.C91_negation_narrow"
   ],
   "note": "false as stated: colons at the ends of lines disappear (with 80 columns the default of --columns is announced by \"[default auto]\"), and below 22 columns words are broken; proved: the same words from 22 columns on if colons at the ends of words are left aside, exactly the same words from 125 columns on, the same printed characters for all widths; argparse and textwrap of Python 3.11"
  },
  {
   "property": "C92",
   "status": "proved",
   "theorems": [
    "Kolombos.C92_options"
   ],
   "note": "at least 22 columns; that the listed names are the accepted ones is C90, where shortNames and longNames occur"
  },
  {
   "property": "C93",
   "status": "proved",
   "theorems": [
    "Kolombos.C93_fits"
   ],
   "note": "at least 22 columns; the width is counted without colour sequences; lines of 24 characters are always possible"
  },
  {
   "property": "C94",
   "status": "partial",
   "theorems": [
    "Kolombos.C94_later_partial",
    "Kolombos.C94_negation"
   ],
   "note": "false as stated: the first call takes the remarks away; proved: all later pages are the first without the remarks"
  },
  {
   "property": "C95",
   "status": "partial",
   "theorems": [
    "Kolombos.C95_titles_partial",
    "Kolombos.C95_negation"
   ],
   "note": "false as stated: the titles are bold in any case; proved: nothing else is"
  },
  {
   "property": "C96",
   "status": "proved",
   "theorems": [
    "Kolombos.C96_default",
    "Kolombos.C96_told",
    "Kolombos.C96_debug",
    "Kolombos.C96_text"
   ],
   "note": "for the display and the exit status; at least 22 columns for the page; max-lines and max-bytes have no value as default (\"no limit\"), columns has \"auto\""
  },
  {
   "property": "C97",
   "status": "proved",
   "theorems": [
    "Kolombos.C97_other",
    "Kolombos.C97_listed",
    "Kolombos.C97_marker"
   ],
   "note": "for the display and the exit status; the mode is the one asked for (displayedIn), for -DDDD see C34"
  },
  {
   "property": "C98",
   "status": "partial",
   "theorems": [
    "Kolombos.C98_demo_partial",
    "Kolombos.C98_preset",
    "Kolombos.C98_negation",
    "Kolombos.C98_negation_file"
   ],
   "note": "false as stated: with four -D the mode is text, and a file name together with --demo is refused; proved: everything else"
  },
  {
   "property": "C99",
   "status": "proved",
   "theorems": [
    "Kolombos.C99_commands",
    "Kolombos.C99_accepted",
    "Kolombos.C99_said"
   ],
   "note": "at least 22 columns; toInt must read decimal numerals"
  }
 ]
}