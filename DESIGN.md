# Formal model of kolombos

Subject: `/repo` (es7s/kolombos, python), with the bundled `pytermor` library it
prints through.  The model is written in Lean 4 (`lean/Verif`), nothing in
`/repo` was run: the sources were read as text.

## Layout

* `Verif/Model/*` – the model, function by function; every definition cites the
  file and lines it renders and says what was simplified.  `Model/Base` has bytes,
  strings, python slicing and integer formatting.
* `Verif/Spec/*` – small specifications that do not use the model's helpers:
  a terminal emulator for SGR codes, UTF-8 by `String.utf8EncodeChar`, the
  ECMA-48 escape grammar, the line/row structure, the legend, prefixes of the input.
* `Verif/Lemmas/*` – proofs about the model.
* `Verif/Props/*` – one theorem (or a few) per property, with examples showing
  the hypotheses are met by non-trivial cases.
* `Verif/Cases/*` – further applications of theorems to concrete, non-trivial inputs.
* `seeded/LOG.jsonl` – wrong programs tried against the theorems.

Properties that the code violates are handled so: the negation is proved with a
concrete witness (`CXX_negation`), the strongest part that does hold is proved as
`..._partial`, and the disagreement is listed in "Findings" below.

## Trusted base

* Lean's kernel; axioms at most `propext`, `Classical.choice`, `Quot.sound`.
  No `sorry`, no own axioms, no `native_decide`, no `bv_decide`.
* The claim that the model renders the python code, checked by reading, and by C87: the shipped legend, 22650
  characters written by the real program, is what the model computes.
  `Model/Help` and `Model/TextWrap` were compared with `argparse` and `textwrap` of Python 3.11 themselves (a parser with the same
  texts, written down a second time) for 1 to 180 columns, with and without a terminal: all 360 pages are identical.
  `Model/ArgStrings` was also compared with `argparse` of Python 3.11 itself (a parser with the same options, written
  for this purpose) on 30000 random command lines, without a difference.
  `Model/ReplTemplate` was compared with `re.sub` of Python 3.11 for both patterns on 4000 random pairs of a replacement and a text, without a difference.
* Semantics given to python built-ins: `re` (backtracking, first match in
  priority order, `sub` left to right without overlaps), `bytes`/`str` slicing,
  `int()`, `str.format`, `bytes.decode`, `dict` order.
* Floating point: `floor(a / b)`, `ceil(n / 2)` and `trunc` in the column count, the
  padding and the time deltas, and the HSV conversion, are modelled by exact
  rational arithmetic.

### Axioms of each theorem

* none: C103_removed, C34_negation, C44_negation, C60_palette.
* `propext`: C103_setter, C20_negation, C34_stable, C34_partial, C35_set, C45_negation, C63_negation.
* `Quot.sound`, `propext`: C04_negation, C10_queue, C103_meaning, C103_case, C103_negation, C103_inherited, C105_restored, C105_during, C105_no_terminal, C105_exception, C105_result, C105_keys_partial, C105_negation, C105_negation_early, C108_terminal_kinds, C11_detach_bytes, C110_defined, C15_active, C22_prefix, C28_negation, C35_get, C36_max_bytes, C37_limits, C37_max_lines, C38_delivery, C38_file, C39_close, C41_add, C42_add, C48_fits, C48_single, C55_settings, C55_help, C58_explained_partial, C58_binary_partial, C58_negation, C59_stable, C59_plain, C60_usable, C61_inherit, C62_negation, C62_partial, C63_sum_partial, C94_negation, C95_negation.
* `Classical.choice`, `Quot.sound`, `propext`: C01_scan, C01_parse, C01_shown, C02_utf8_piece, C03_text, C04_partial, C05_byte_class, C06_escape_iff, C06_escape_first, C07_csi_marker, C08_negation, C08_status_partial, C09_errors, C09_status, C10_no_error, C100_same, C100_prefix, C100_usual, C100_failure_partial, C100_encoding, C100_negation, C101_interrupt, C102_known_partial, C102_separator, C102_negation, C103_complete, C103_grey_partial, C103_shown, C103_background, C103_flipped, C103_span_partial, C103_negation_gray, C104_terminal, C104_tmux_partial, C104_plain, C104_others, C104_off_partial, C104_negation, C104_negation_tmux, C106_width, C106_redirected, C106_columns, C106_program, C106_pipe, C107_text, C107_binary, C107_stdin_text, C107_stdin_binary, C107_text_fails, C107_binary_fails, C107_status, C107_stdin_text_fails, C107_stdin_binary_fails, C107_stdin_status, C108_sequence, C108_sequence_form, C108_span, C108_color, C108_value, C108_style, C108_style_form, C108_html, C108_terminal, C109_shown, C109_names, C110_length_partial, C110_scale_partial, C110_negation, C111_csi, C111_sgr, C111_space, C111_bytes, C111_refused, C112_binary, C112_text, C113_text, C113_unique_partial, C113_binary, C113_negation, C113_negation_brief, C114_text_partial, C114_stdin_text_partial, C114_binary, C114_stdin_binary, C114_bytes, C114_stdin_bytes, C114_negation, C115_numbers, C115_stdin_numbers, C115_separators, C115_stdin_separators, C115_offsets, C115_stdin_offsets, C115_decimal, C115_stdin_decimal, C116_text, C116_stdin_text, C116_binary, C116_stdin_binary, C117_text, C117_stdin_text, C118_messages, C118_screen, C119_counts_partial, C119_text_partial, C119_negation, C12_split, C120_messages_partial, C120_lines_partial, C120_screen_partial, C120_negation, C121_choice, C121_attained_partial, C121_negation, C121_negation_asked, C121_negation_created, C122_layout, C122_headings, C123_wrap, C123_made, C124_message, C124_read, C13_binary, C13_text, C14_cells, C16_consistent, C17_geometry, C18_hex, C19_offsets, C20_label_partial, C20_injective_partial, C20_exact_partial, C21_held, C21_end, C23_negation, C23_terminates_partial, C23_zero_partial, C24_negation, C24_fits_partial, C24_positive_partial, C24_narrow_partial, C25_lines, C26_negation, C26_view_partial, C26_complete_partial, C27_prompt, C27_end, C28_clean_partial, C29_text, C29_binary, C30_text, C30_binary, C31_controls, C32_negation, C32_offset_partial, C32_exact_partial, C33_text, C33_binary, C33_faithful, C40_negation, C40_text_partial, C40_binary_partial, C40_ascii_partial, C40_lines_partial, C41_assemble, C41_noop, C41_eq, C41_hash, C42_closing, C42_span, C42_default, C42_codes, C43_strip, C43_appears, C43_pad, C44_partial, C45_partial, C46_status, C47_nearest, C47_cacheless, C48_layout, C49_fits, C49_short, C50_chars, C51_text, C51_binary, C52_split, C52_join, C53_negation, C53_ranges_partial, C53_faithful, C53_injective, C54_text, C55_order, C56_text, C56_binary, C56_usage, C56_missing, C56_stdin_text, C56_stdin_binary, C57_demo, C57_text, C58_legend, C58_version, C59_shown, C60_close, C61_autopick, C62_exact_partial, C63_values_partial, C63_negation_format, C64_negation, C64_partial, C65_display, C65_quiet, C65_rows, C66_messages_partial, C66_negation, C67_source_partial, C67_unseekable, C67_negation, C68_chunks, C68_rows, C68_screen, C68_rows_screen, C69_lines_partial, C69_screen_partial, C69_exact_partial, C69_screen_exact_partial, C69_negation, C70_length_partial, C70_exact_partial, C70_total, C70_negation, C71_plain, C71_exponent, C71_zero, C72_metric, C72_binary, C72_bytes, C72_zero, C72_beyond, C72_outside, C72_refused, C73_metric_partial, C73_binary_partial, C73_small_partial, C73_negation, C74_metric_partial, C74_binary_partial, C74_negation, C75_groups, C76_partial, C76_exact_partial, C76_negation, C77_csi, C77_sgr, C77_csi_any, C77_sgr_any, C78_partial, C78_exact_partial, C78_negation, C78_again, C79_whitespace_partial, C79_bytes_partial, C79_filters_partial, C79_negation, C80_shown_partial, C80_double, C80_plain, C80_negation, C80_negation_state, C81_shown_partial, C81_negation, C81_negation_class, C82_inverse_partial, C82_exact_partial, C82_negation, C83_marks, C84_span, C84_refused, C84_presets, C85_text_partial, C85_reset_partial, C85_negation, C86_template_partial, C86_negation, C86_negation_lines, C87_legend, C88_table, C88_derived, C88_none, C88_program, C88_program_derived, C89_status, C89_quiet, C89_display, C89_failure, C89_trace, C89_negation_name, C90_spelling, C90_accepted, C90_unknown, C90_ambiguous, C90_program, C91_words_partial, C91_ink, C91_wide, C91_negation, C91_negation_narrow, C92_options, C93_fits, C94_later_partial, C95_titles_partial, C96_default, C96_told, C96_debug, C96_text, C97_other, C97_listed, C97_marker, C98_demo_partial, C98_preset, C98_negation, C98_negation_file, C99_commands, C99_accepted, C99_said.

## What is modelled

| code | model |
|------|-------|
| `kolombos/byteio/parser/*` (regular expression, `re.sub` loop, `ParserBuffer`, CSI resolver) | `Model/Regex`, `Model/Parser` |
| `kolombos/byteio/const.py`, `partial_override.py`, `settings.py` (effective values, read mode with its side effect) | `Model/Settings` |
| `kolombos/byteio/template/*` (all templates and the registry) | `Model/Template` |
| `kolombos/byteio/segment/*` (segments, references, buffer) | `Model/Segment` |
| `kolombos/byteio/formatter/*` | `Model/Formatter`, `Model/Run` |
| `kolombos/byteio/reader.py`, `runner/byteio.py`, `runner/demo.py` | `Model/Reader`, `Model/Run` |
| `dev/es7s_tpl_processor.py`, `dev/generate_legend.py`, `dev/legend.tpl.ansi`, `kolombos/legend.ansi` | `Model/Es7sTpl`, `Model/LegendGen`, `Model/LegendTpl`, `Model/LegendFile` |
| `kolombos/console.py` (prefixes, separators, what is printed) | `Model/Console` |
| debug messages of `console.py`, `reader.py`, `parser/*`, `segment/*`, `formatter/*` | `Model/Debug` |
| `console.py` (`debug_settings`, `get_separator_line`, `on_exception`), `settings.py` attributes, `app.py` with debug output | `Model/SettingsTable` |
| `print` raising an exception: `console.py` (`flush` of the buffers, `on_exception`), `byteio/reader.py` (`try` block), `app.py`, all runners | `Model/Output` |
| `pytermor/color.py` (`Colors`), `common.py` (`Registry`), `render.py` (colour arguments of `Style` and `Text`, setters) | `Model/ColorNames` |
| `kolombos/app.py` (dispatch, exit status), `runner/legend.py`, `runner/version.py` | `Model/App` |
| `kolombos/demo.bin`, `kolombos/legend.ansi` | `Model/Demo`, `Model/LegendFile` |
| the options of `kolombos/arghelp.py` as strings, with the part of `argparse` (Python 3.11) that divides strings into options: `_parse_known_args`, `_parse_optional`, `_get_option_tuples` | `Model/ArgStrings` |
| the help page: `kolombos/arghelp.py` (all texts, `CustomHelpFormatter`, `CustomArgumentParser.format_help`), with `HelpFormatter` of `argparse` and `textwrap` (Python 3.11) | `Model/Help`, `Model/TextWrap` |
| `kolombos/arghelp.py`, `kolombos/__main__.py` (options, exclusive groups, what `argparse` does with recognised options) | `Model/Args` |
| `pytermor/ansi.py` (`SequenceSGR`, closing sequences, constants used) | `Model/Sgr` |
| `pytermor/ansi.py` (construction from names, explicit spans, comparison of spans, `IntCodes`, `Seqs`, `Spans`), `pytermor/common.py` `Registry` | `Model/Ansi` |
| `pytermor/util/string_filter.py` (filters), `stdlib_ext.py`, with `parse_template` of `re` (Python 3.11) | `Model/Sgr`, `Model/Filter`, `Model/ReplTemplate` |
| `pytermor/color.py` (`Approximator`, channels, HSV) | `Model/Color` |
| `pytermor/color.py` (colour types, presets) | `Model/Render`, `Model/Presets` |
| `pytermor/render.py` (`SgrRenderer`, `Style`, `Text`) | `Model/Render`, `Model/Style` |
| `pytermor/render.py` (`TmuxRenderer`, `HtmlRenderer`, `DebugRenderer`, `NoOpRenderer`) | `Model/OtherRenderers` |
| `pytermor/render.py` (`RendererManager`, `set_up` of the renderers, `Text.render` with each renderer) | `Model/Renderers` |
| `pytermor/common.py` `wait_key`, `kolombos/common.py` `get_terminal_width` with `shutil.get_terminal_size` | `Model/Terminal`, `Model/Console` |
| `pytermor/render.py` `distribute_padded` | `Model/Pad` |
| `pytermor/util/time_delta.py` | `Model/TimeDelta` |
| `pytermor/util/auto_float.py` | `Model/AutoFloat` |
| `pytermor/util/prefixed_unit.py` | `Model/PrefixedUnit` |
| `__repr__` of `SequenceSGR`, `Span`, colours and `Style`, `Styles` | `Model/Repr` |
| `pytermor/util/__init__.py` `format_thousand_sep` | `Model/ThousandSep` |

## How each property is proved

| id | model | proof |
|----|-------|-------|
| C01 | the regular expression as syntax tree, backtracking matcher, `re.sub`, `parse`, parser buffer | every byte starts a match (case analysis), induction on length |
| C02, C03, C04 | regex group 0; `decode('utf8', 'replace')` | table ranges by arithmetic against `String.utf8EncodeChar`; C04 false (greedy binary run): negation and exact characterisation |
| C05, C06, C07 | regex, `MGROUP_TO_TPL_MAP`, CSI resolver | matcher proved equal to a maximal-munch lexer, lexer against the grammar |
| C08, C09 | everything reachable from a chunk; exceptions are values | C08 false (`ESC[?1m`), C09 characterises the failing chunks exactly |
| C10–C12, C15 | segment buffer with arbitrary operation histories | invariant over histories |
| C13, C14, C16–C19, C21, C50 | templates, registry, buffer, binary formatter, console prefixes | refinement of the printed rows to a table of cells via the terminal emulator |
| C20 | prefix formatting | arithmetic; false from 1 000 000 up (hex) / 10^8 (decimal); `C20_exact_partial`: the label is right exactly below these bounds |
| C22 | whole run | output is append-only; induction over chunks |
| C23, C24 | formatter loop with fuel, column computation | termination measure for positive columns, divergence for negative ones, arithmetic |
| C25–C28, C31, C32 | templates, `detach_line`, text formatter | refinement of printed lines to cells per piece; C26, C28, C32 false in corner cases, with witnesses |
| C29, C30, C33, C51 | templates, SGR template | displayed characters with styles (`Spec/Ink`), case analysis over templates, induction over the parameter list |
| C34, C35 | settings with mutating property, override tables | histories of queries; C34 false for `-DDDD --demo` |
| C36–C39 | reader loop with limits, arbitrary chunking, failing callbacks | induction over chunks |
| C40 | whole run | false; partial for cuts at piece boundaries and outside escape sequences |
| C41–C43 | `SequenceSGR`, closing sequences, `ReplaceSGR`, justify | induction over parameter lists |
| C44, C45 | parser buffer, sequence references | both false; the part that holds is characterised |
| C46 | `App.run` | case analysis |
| C47, C52, C53 | `Approximator` as state machine, channels, HSV | invariant over histories, arithmetic |
| C48 | `distribute_padded` | induction |
| C49, C54 | time delta formatter over rationals | closed table of texts (`Spec/TimeDelta`), case analysis over the units |
| C121 | registry of formatters as a dictionary, any own formatters | invariant over the registrations (`RegOf`): every length has the last formatter registered with it; search specified independently (`Spec/TimeFormatters`) |
| C55 | `argparse` loop over recognised options | invariant over the processed prefix: settings, actions seen, file names |
| C56 | the whole program | composition of C55, C37, C38, C40, C51, C18 |
| C57 | `DemoRunner`, the bundled file as a byte list (`Model/Demo`) | composition as for C56 with the settings of the demonstration |
| C58 | `LegendRunner`, `VersionRunner`, the bundled legend as a character list (`Model/LegendFile`) | induction over the lines (`Spec.copyLines`); the terminal of `Spec/Terminal` run over the whole bundled legend line by line (`decide +kernel` over the complete file, lifted by induction), then case analysis over the kinds |
| C59 | `SgrRenderer`, colours, palettes as state | invariant over search histories (C47), the terminal run over opening and closing sequences (C42), induction over lines and runs |
| C60 | preset tables | whole tables against formulas (`decide +kernel`), arithmetic for the bound |
| C61, C62 | `Style` | induction over the chain; C62 false, with witness |
| C63, C64 | `Text` objects with shared runs | refinement of the objects to values, by induction over histories; both false, with witnesses |
| C65–C67 | all debug messages (`Model/Debug`), interleaved with the display as a trace | erasing the messages gives the plain run (simulation, by induction over steps and fuel); every message and every write of the display is one line for a terminal in its default state, so the lines of the display are a sublist |
| C68, C69 | the messages of the reader and of the formatters in the trace | what a message says is stated as the text visible on a terminal; induction over the chunks, and over the rows (or lines) with the invariant that every write of the display follows its message; `C68_screen`, `C68_rows_screen` and `C69_screen_partial` carry this over to the lines on the screen at the level of the settings (`Annotated` relates the lines of the screen to the lines of the display among them) |
| C70, C71, C76 | `format_auto_float` over the rationals | the numeral is read back by `IsDecimal`; bounds for rounding and digit counts, `⌊log10⌋` by its defining inequalities |
| C72, C73, C74 | `PrefixedUnitFormatter.format`, both presets | induction over the loop in both directions gives the scale; then C71 for the scaled value; outside the range of the prefixes the loop runs off its end and the last scale stays (`C72_outside`, `C72_refused`) |
| C75 | `format_thousand_sep` for integers | induction over the groups |
| C77, C78 | `ReplaceCSI`, `ReplaceSGR`, templates of `re.sub` | the two expressions have one shape; its first match is computed for any sequence, and there is none exactly if no sequence begins there; then induction over the text |
| C79, C111 | `VisualuzeWhitespace`, `ReplaceNonAsciiBytes`, `apply_filters`; `parse_template` of python for all filters | the tokens of a written replacement, then the items for them, by induction over its parts; induction over the text |
| C112 | (display as in C51) | the styles of C51, and that copying of SGR parameters never touches underlining, by induction over the parameters; lengths of pieces align cells and bytes |
| C113 | (display as in C51, C18) | a reader for displays with styles, from right to left; induction over pieces shows that it gives back the bytes, over lines that labels can be removed; binary mode from C18 |
| C80 | `TmuxRenderer` | `Spec/Tmux`: a machine reading `#[…]` styles; every sequence of a renderer is one word, induction over the runs |
| C81, C82 | `HtmlRenderer` | `Spec/Html`: a reader of `span` elements and their declarations; the iteration order of sets is any permutation |
| C83 | `DebugRenderer` | `C77_sgr` for the parts of a rendered text, `C59` for what they show |
| C84 | `SequenceSGR(*args)`, `Span(*args)`, `Registry.resolve`, all tables of names | meanings of names listed in `Spec/Names`, tables compared by evaluation, then induction over the arguments with `C42_codes` |
| C85 | `Span.init_explicit`, `_opt_arg`, `__len__` | false: negation; what is written is proved exactly |
| C86 | `Es7sTemplateProcessor.substitute`, `_resolve_fmt_match`, `_resolve_var_match`, `_try_int` | a template is a list of parts; each of the three patterns finds exactly its parts (induction over the parts); negations by evaluation |
| C87 | `dev/generate_legend.py` (all functions, the table of variables), `dev/legend.tpl.ansi`, `kolombos/legend.ansi` | the variables are evaluated by the kernel, then C86 on the parts of the template, compared line by line with the file; the version and the date stay variables |
| C88 | `Console.debug_settings`: `__dir__`, `__dict__`, sorting, both objects (reading `read_mode` changes them), lines of dashes (`Model/SettingsTable`) | the sorted list of attributes by reduction, then row by row what the terminal shows, against a table written down in `Spec/SettingsTable` |
| C89 | `App.run` and the command line with all writes (`Debug.program`) | C65's simulation for the run; the table, the messages and the display are whole lines, so the lines of a concatenation are those of the parts |
| C90 | `argparse` on strings (`Model/ArgStrings`); the spellings are an inductive relation (`Spec/Spelling`) | classification of each word from whole-table facts lifted by prefix lemmas; induction over letters and over the relation; conversely by inversion of the loop, so the relation is exactly what is accepted |
| C91 | `format_help` with `textwrap.wrap`, colours and the removal of colons | wrapped explanations are groups of words (induction over the loop of `wrap`), the page is a list of lines on which the colon pattern matches at line ends only (induction over the pattern), facts about single words and fixed lines by evaluation over the whole table; characters: every step keeps them, for all widths |
| C92 | the same page, read line by line (`Spec/HelpPage`) | option lines of each entry from the lines above, names from the table, compared with the names of C90 by evaluation of the whole table |
| C122 | the same lines (`Spec/HelpLayout`) | every group of options is a block that begins with an empty line and ends with an indented one, whatever the width; blocks may follow each other; the fixed lines are evaluated |
| C123 | `Span.__eq__`, `__call__` | an assembled sequence contains no letter x, so the text "x" tells two spans apart |
| C124 | `SegmentBuffer.preview` (`Spec/DebugQueue`) | parts of the message as they appear on a terminal (`Says`), word by word; the figures of all 256 bytes are evaluated |
| C93 | the same | length of each group of words from the loop of `wrap` |
| C94 | `format_help` called again and again | induction over the calls; the endings with and without remarks compared by evaluation |
| C95 | the same page without a terminal | case distinction over the lines |
| C96, C97, C98 | the page as text (`Spec/HelpClaims`) and the whole program with one more option | settings of the longer command line from C55; a run depends on the settings only through those that `Lemmas/Agree` lists for its mode (layer by layer from the formatters to the run) |
| C99 | the lines of the page that begin with the name of the program | lines about options contain no such word (from C91); the fixed lines by evaluation; C90 for what the words mean |
| C100, C102 | the whole program on an output that decides for every call of `print` whether it raises (`Model/Output`); an output that takes everything gives the program of C89 (`C100_same`) | each part of the program either passes on all its texts or stops at the first rejected one with the unflushed buffer as state; composition from `print` to the program; the separator by a predicate on every row |
| C101 | the same, with an output that is interrupted at one call | the texts of the display are single lines (C65), so the first `k` texts are the first `k` lines on the screen |
| C103 | the whole table of colours and the renderer of C59 | facts about all 293 entries by evaluation in the kernel; lookup = membership because the names differ; appearance from C59 and C84 |
| C104 | all renderers with the class attributes that `set_up` assigns | invariant over the history of calls: the state is what the last calls say; then C59, C80 and C83 for the renderer in force |
| C105 | `wait_key` with the attributes of the terminal, what is typed and what `sys.stdin` has read in advance (`Model/Terminal`) | case distinction over how the call ends; induction over the calls; flags bit by bit |
| C106 | `shutil.get_terminal_size`, `get_terminal_width`, the program | nothing but the formatter looks at the number of columns; the length of the prefix is constant (C24) |
| C114 | the whole program, twice | C107 for both command lines; the pieces before a line feed, or of any beginning except the last, do not depend on what follows (induction over the parts), so neither do the lines |
| C115 | the whole program, twice | C107 for both command lines; nothing else that appears for a piece has the style and character of a separator (cases), labels are put in front of lines and rows that do not depend on them |
| C116 | the whole program, twice | C107 for both command lines; the relation between places is shown for each kind of piece and carried over to lines and rows |
| C117 | the whole program, twice | C107 for both command lines; per kind of piece the filter leaves the piece without details, and what is missing at the end of an incomplete line is a detail |
| C118 | debug messages of the reader and the parser | the items of the scan are the pieces (C01), each with its position; the text of each message is computed as in C68; lifted over chunks with the invariant that the parser buffer is empty |
| C119 | debug messages of the parser, the segment buffer and the formatters | invariant over the events of a run: the number in the queue is the length of the data in the buffer (as in C09), the offset is that of the formatter; every other line begins differently |
| C120 | debug messages of the reader about limits, with those of C118 | the limits of the loop are those of the specification (what is left of a chunk after what was read before), then as C118 by induction over the chunks |
| C107 | the whole program, files and standard input of any size | the chunks that reach the parser are the parts of the size of the buffer (induction over the reads), then C51, C18, C21, C27, C13 and C09 for them; the number of columns as in C106 |
| C108 | `__repr__` of all classes, renderers | representations are decomposed again: numerals are injective, parts are separated by characters they do not contain; the order of names is that of the texts |
| C109 | `Styles`, `Registry.resolve`, terminal renderer | the whole table by evaluation, then C59 for each entry |
| C110 | `PrefixedUnitFormatter` with any parameters | induction over the loop; `number_room`: the number has one character more exactly just below a power of ten |

## Findings

Places where the code does not do what its documentation or its user would expect; each has
a proved witness (`CXX_negation`) unless marked as a remark.

* C04: a valid UTF-8 sequence directly after invalid bytes is displayed as binary
  data (`ff c3 a9`), because the binary run is greedy.
* C08: an SGR sequence with a private or non-numeric parameter (`ESC [ ? 1 m`) ends the run with
  `ValueError` and exit status 1.
* C20: offset labels are cut to their first 8 characters, so labels of different offsets coincide
  from 1 000 000 (hex) or 10^8 (decimal) on.
* C23: with a negative number of columns (`-w -1`, or automatically on a very narrow terminal) binary mode
  never terminates; with 0 columns nothing is displayed and the total is reported as 0;
  with 0 columns and a style active from before it does not terminate either.
* C24: the automatic number of columns is 0 or negative on terminals of fewer than 48
  columns (39 with decimal offsets).
* C26: the details of a control character, or the closing separator of an escape sequence,
  at the very end of an input without final line feed are not printed.
* C28: C1 control characters encoded in UTF-8 (`c2 80` – `c2 9f`) reach the terminal.
* C32: `bytes(int)` is used where a byte of that value is meant: a control character with
  details counts as many bytes as its code; with `-m 0` an escape sequence counts as one byte.
* C34: the debug level switches the demo from binary to another read mode
  (`-DDDD --demo` asks for the read mode before the default is set).
* C40: a cut between chunks inside a sequence changes the display, so the output depends on `--buffer`.
* C44: `crop_raw` cuts at the first occurrence of the rest, not at the last: wrong when the
  rest occurs earlier in the buffer too.
* C45: a sequence reference compares equal to every other reference, also to one of a different sequence.
* C53: the hue of `0xff0001` exceeds the documented maximum of 359.
* C58: markers of nF and Fp sequences are displayed green and yellow, the legend has them only
  inverse; the mark `×` of ignored bytes is not in the legend.
* C62: `Style(bold=True) == Style()`, because the generated comparison knows only the colours.
* C63: `a + b` changes `a`; formatting a text with a width changes it and every text it was added to.
* C64: `Text(0)` is empty.
* C66: the name of the file is printed as it is in the debug message `Opened file`.
  The table of settings does the same, so a file name with an SGR sequence colours the lines of the display
  (`C89_negation_name`).
* C69: in text mode the bytes in the debug messages lack the parameters of escape sequences, so that the
  offsets of later lines are too small (with details, a control character counts as as many zero bytes as its code).
* C120: if the limit of bytes cuts a chunk, the end of the input is reported at the offset of that chunk, not after the bytes that
  are left of it (`reader.py`: the loop is left by `break` before the offset is advanced).
* C121: `TimeDeltaFormatter._compute_max_len` tries one interval per unit only; a formatter of hours up to ten has `max_len` 2 but writes
  `10h`.  If one of these intervals overflows, `format_raw` reads `_max_len` before it is set and the constructor raises `AttributeError`.
* C119: in text mode the debug messages about the queue count an escape sequence as one byte (with details a
  control character as its code), so that the numbers do not agree with the number of bytes parsed.
* C67: the reader asks for the position in the file for a message, even if the message is not printed
  (reader.py:45), so a FIFO or process substitution given by name ends the run with `OSError` at the first chunk.
* C70: `format_auto_float(9.999, 4)` is `10.00`: rounding to the next power of ten is taken into account only without decimals.
* C72: beyond the prefixes (from 10²⁷ on) the unit passed to `format_si_metric` is lost; from 10³¹ on (10³⁰ for negative values) a `ValueError` is raised (`C72_refused`: exactly then).
* C73: the documentation of `format_si_metric` shows `1.26 nm²` and `331 mg`; the results are `0.00 μm²` and `0.33 g`, because
  a value is scaled up only if it is at most 1/1000.
* C74, C110: `format_si_metric(99990)` is `100.0 km`, one character more than `max_len`; `max_len` of a formatter without prefixes
  raises `ValueError`, and so do values beyond its range.
* C76: `format_auto_float(-1234.5, 6)` is `- 1234`, and `format_si_metric(-12)` is `- 12 m`.
* C79: `VisualuzeWhitespace('\\')` turns a line feed into `\1`: the backslash escapes the one of the reference that is appended.
* C78: `ReplaceCSI` keeps sequences such as `ESC[3~` and those with intermediate bytes; what is left of `ESC ESC[m [m` is a sequence again.
* C80: `TmuxRenderer` does not escape `#`, so `a#[b]` is drawn as `a`; a double underline is ended by `nounderscore`, which for tmux
  is another attribute; styles for tmux are omitted if the standard output is not a terminal.
* C81: `HtmlRenderer` escapes neither the text nor the class name.
* C82: a style that only swaps the colours has no effect in HTML.
* Remark: with `-D` line numbers are displayed even with `--no-line-numbers`; the table of bytes at `-DD` in text mode shows zeros instead of
  the codes of control characters with details.
* C85: `Span.init_explicit(opening, closing)` drops both sequences: it asks `if not arg`, and every sequence
  has length 0 and counts as false.
* C86: in templates `^{list_colors}` raises `ValueError`, and comments of several lines are not removed (`.` does not match line feeds).
* C91: `format_help` removes colons before every line end, so explanations that are broken after `[default:` or `details:` lose
  their colon; this happens with 80 columns (`[default auto]`).  Below 22 columns `(-D|DD|DDD|DDDD)` and, on a terminal,
  colour sequences are broken into pieces.
* C94: `format_help` sets `self.epilog = None`, so the remarks are shown only once.
* C95: titles of the help page are bold even if the output is not a terminal.
* C98: the help page says that a file name is "ignored if --demo is present", but the program refuses it (exit status 2); with four `-D` the
  demonstration is not in binary mode (C34).
* Remark: `NOOP_COLOR_INDEXED` is documented to render into an empty string, but `to_sgr()` raises (example in `Props/Render`).
* Remark: some lines of the bundled legend do not reset the grey they set, so the next lines begin grey (`lineStart` in `Props/Legend`).
* Remark: an ignored line feed in text mode is written while dim grey is still active.
* Remark: `_compute_max_len` (time deltas) raises `AttributeError` if a test value overflows; only
  possible with formatters defined by the user.
* Remark: for colours outside 24 bits the cached table and the search disagree (example in `Props/Color`).
* Remark: `-w 0` means 0 columns, though 0 is declared as the default and the default described as "auto" (C23).
* C105: `wait_key` reads through `sys.stdin`, which keeps what a key sends beyond its first character; the next calls return it
  at once.  `TCSAFLUSH` discards only what has not been read.
* Remark: an interruption while the file is being opened is not caught; not modelled.
* C100: a console buffer is emptied only after its `print`, and `Console.on_exception` begins with flushing the buffers.  If the output
  cannot encode a line, the handler prints the same line again and fails again: the user sees a raw python traceback instead of the hint.
  If the output fails only once, the line is printed after all, followed by the report of the error.
* C102: the separator `│` is part of every line with a line number or an offset, so nothing is displayed on an output with an encoding
  that lacks it, even if the input is ASCII.
* C103: `Colors.GREY_63` has the value 0xaf87af, a violet.  `Colors` has `GREY`, the codes for spans have `GRAY`, so
  `Spans.resolve('gray')` works and `Style('gray')` raises `KeyError`.
* C104: `set_up` assigns the attributes of the class it is called on.  After `TmuxRenderer.set_up()` a later `SgrRenderer.set_up(...)` no
  longer affects tmux, although it "affects all renderer types"; `force_styles=None` does not affect the debug and the HTML renderer.
* C113: in text mode the code of a control character at the very end of the input is not displayed, whatever `--marker` is (cf. C26),
  so `a` followed by 01 and by 02 look the same even with `-mm`.  With `-m` the sequences `ESC[1;m` and `ESC[1m` look the same, although the
  first ends with a reset.
* C114: `--max-lines n` stops before the `n`-th line feed, so the last line is displayed as if it were incomplete: without the symbol of the
  line feed and without details at the end (cf. C26).  If it is empty it is not displayed at all: `a`, an empty line and `b` with `-L 2` show one line.
* Remark: README.md says that level 1 of details is the default; the help page and the program use level 0.
* Remark: an interruption (`Ctrl-C`) before the input is read (possible only with `-D`, or in `--legend` and `--version`) is not caught: status 130.

## Not modelled

The text of the traceback (`-D`), the `repr` of a bound method in the table of settings (`-DDDD`), texts written in part
when `print` fails, the flush of standard output by python at exit, errors of standard error,
the terminal beyond SGR attributes (no cursor movement, no character widths),
memory limits, python's 4300 digit limit of `int()` (reachable only with a read
buffer larger than that), NaN and
infinite numbers of seconds.
