# Formal model of kicad-parse-gen: design

The model is written in Lean 4 (`/verif/lean`).  It follows the Rust sources
function by function; every model definition cites the file and lines it
mirrors, and says so where it simplifies.  Property theorems live in
`Verif/Props/Cnn.lean` (one file per property), separate from the model
(`Verif/Model/*`, built on `Verif/Basic/*`), the specification vocabulary
(`Verif/Spec/*`) and the helper lemmas (`Verif/Lemmas/*`).

## Trusted base

* The Lean 4.33.0 kernel.
* The axioms of the theorems: every theorem named in `MANIFEST.json` depends on a
  subset of `propext`, `Quot.sound` and `Classical.choice`, Lean's standard axioms.
  There are no own axioms, no `sorry`, no `native_decide`, no `bv_decide`;
  concrete examples are evaluated by the kernel (`decide`, `decide +kernel`).
* That the model mirrors the code.  This was checked by reading, by the wrong-program
  experiments in `seeded/LOG.jsonl`, and by running the model on the test data (see
  "Validation").
* The assumptions about code outside /repo listed under "Not modelled".
* The laws about floating point numbers listed under "Conventions", where a theorem
  names them as hypotheses.

## Conventions

* **Strings** are `List Char` (`Str`), i.e. sequences of Unicode scalar values.
  Byte offsets only occur in the code right after ASCII characters, so slicing
  is modelled by `List.drop`.
* **Outcomes** are `Res α = ok a | err e | panic | diverge`.  `err` carries the
  kind of error only; where message texts are modelled, the type is `Said α`.  `panic` is an explicit outcome,
  so "never panics" is a statement one can prove or refute.  `diverge` is "the
  recursion budget is exhausted"; theorems show when it cannot happen.
* **i64** values are `Int`; parsing checks the range, so round-trip theorems
  have an explicit in-range hypothesis.
* **f64** is an abstract type `F` with a class `Flt F` of operations (no laws).
  Laws are separate classes, and each theorem names those it needs:
  `TextLaws` (printing then parsing is the identity), `ZeroLaws` (only zero is equal
  to zero), `EqLaws` (float equality is equality, i.e. no NaN), `OrdLaws` (total
  order, i.e. no NaN), `MonoLaws` (rounding is monotone, no overflow), `IntLaws`
  and `ExactLaws` (exact arithmetic; true for `f64` only as long as nothing is
  rounded, so theorems using it describe the code up to rounding).  A concrete
  instance (`Nm`, integer nanometres) satisfies them all, which shows that the
  hypotheses are not contradictory, and makes the model executable; C105 and C107 use
  it for exact numbers.
  A second instance, `Fl` (`Basic/Round`, `Decimal`, `Sqrt`, `Fl`), is the finite
  part of IEEE binary64: results rounded to nearest even with 53 bits and gradual
  underflow, shortest decimal output, correctly rounded input and square root.
  All law classes except `ExactLaws` are proved for it, so every theorem that does
  not name `ExactLaws` holds for the numbers the code computes with, as long as
  nothing overflows and no NaN is involved.  What remains of the `ExactLaws`
  theorems for `Fl` is C81.
  A third instance, `F64` (`Basic/F64`), adds overflow, the infinities and NaN.
  `TextLaws` and `ZeroLaws` are proved for it, so the theorems on saving and reading
  footprints and boards hold for every `f64` (the two zeros and all NaN identified).
  What the rest of the code does with NaN and the infinities is C84.
* **The file system** is a function from paths to contents or failures.

## What is modelled

| source | model |
|---|---|
| src/util.rs (reading, writing) | `Model/Files.lean` |
| src/lib.rs (file kinds, typed readers, writers, Bound, reference_ord) | `Model/Files.lean`, `Model/Bound.lean`, `Model/RefOrd.lean` |
| src/schematic.rs | `Model/Schematic.lean` (data, Display, parser), `Model/SchematicApi.lean` (everything else), `Model/Split.lean` (the splitter) |
| src/symbol_lib.rs | `Model/SymbolLib.lean` |
| src/footprint/data.rs | `Model/Footprint/Data.lean`, `Model/Footprint/Check.lean` |
| src/footprint/ser.rs, de.rs, mod.rs | `Model/Footprint/Codec.lean` |
| src/layout/data.rs | `Model/Layout/Data.lean` |
| src/layout/ser.rs, de.rs, mod.rs | `Model/Layout/Codec.lean` |
| src/formatter.rs | `Model/Formatter.lean` |
| src/checkfix.rs | `Model/CheckFix.lean` |
| src/fp_lib_table.rs, src/project.rs | `Model/FpLibTable.lean`, `Model/Project.lean` |
| texts of the error messages of the schematic reader | `Model/SchematicMsg.lean` |
| texts of the error messages of the symbol library reader | `Model/SymbolLibMsg.lean` |
| texts of the error messages of the footprint and board readers | `Model/TreeMsg.lean` |
| texts of the errors of the file functions, src/error.rs | `Model/FilesMsg.lean` |
| `println!` notices of the schematic reader | `Model/SchematicOut.lean`, `Model/FilesOut.lean` |
| src/bin/*.rs | `Model/Programs.lean` |
| `Lib::get_expanded_uri` | `Model/Expand.lean` |

## Not modelled

* The crate `symbolic_expressions` is not part of /repo.  `Model/Sexp.lean` models
  what the code uses of it from its documented behaviour: tree type, tokeniser,
  the order in which the serializer calls the formatter, `IterAtom`.  Which atoms
  it puts in quotes is a parameter `q`; theorems hold for every `q` that quotes at
  least the atoms that need it (`QuotesWhenNeeded`).
* The crate `shellexpand` is not part of /repo.  `Model/Expand.lean` models what
  `Lib::get_expanded_uri` uses of it from its documented behaviour; the environment, the
  home directory, which characters count as letters or digits, and the text of the error for a
  variable that is not set are parameters.
* The time stamp and level prefix of `env_logger`, the records of external crates, how `{:?}` prints numbers and how trees
  are printed in `debug!` records (`Model/Layout/Notes.lean` and `Model/BoxMsg.lean` keep such records as the
  values they print), `Debug` output, the standard output of a run that panics.
* Texts of error messages, except those of the schematic, the symbol library, the footprint
  and the board reader, the project reader and the file functions (`Model/SchematicMsg.lean`,
  `Model/SymbolLibMsg.lean`, `Model/TreeMsg.lean`, `Model/FilesMsg.lean`); texts made by the operating system and
  by symbolic_expressions are parameters there; elsewhere only the kind of error is kept.
* Memory and stack limits. Path handling: `Path::parent` and `Path::join` on Unix
  (`Model/Paths.lean`, used by C116); elsewhere how names are joined is a parameter.
* Failing writes leave a prefix of the data or no file (`Fate`); other damage is not modelled.
* `str::to_lowercase` outside ASCII (symbol check).

## Properties

| id | status | modelled | proof method |
|---|---|---|---|
| C01 | proved | Display and parser of schematic.rs on character lists | token lemmas for the quote-aware splitter and split_whitespace, one lemma per line kind, induction over elements, sheets and labels |
| C02 | partial | same | range of the reader characterised (`Lemmas/SchRead`), what printed lines are read as when some end with carriage returns (`strip`, `Lemmas/SchBack`), exact condition for the cycle without side conditions, refuting families |
| C03 | proved | parse loops with fuel = number of lines | each step uses up a line |
| C04 | partial | panic is an explicit outcome | each reader shown to panic only on listed damage; a grammar of the texts that break off, with an iff in both directions; families of texts on which it does panic |
| C05 | proved | Component field API | induction over the field list |
| C06 | proved | `add_new_field` | maximum over the field list |
| C07 | partial | field API + C01 | exact condition through the reader |
| C08 | proved | `modify_component(s)` | induction over elements |
| C09 | proved | file system as a function, recursion with fuel | induction over an acyclicity rank, against an inductive hierarchy relation |
| C10 | proved | same | fuel bound from the rank; divergence for every fuel on a cycle |
| C11 | proved | same | induction over the hierarchy |
| C12 | partial | bounding boxes of schematics | order laws; refuting families |
| C13 | proved | Component API | case analysis |
| C14 | proved | Display and parser of symbol_lib.rs | as C01 |
| C15 | proved | same | exact condition for loading a saved library |
| C16 | proved | same | fuel bound; where panics come from, followed through every reader (`LibDefect`); panic family; a grammar of the texts that break off, with an iff in both directions |
| C17 | proved | `find`, `set_name` | case analysis on the field list |
| C18 | partial | check of pins, rectangles, fields, symbols | findings characterised by an independent fault relation |
| C19 | proved | footprint ser.rs, de.rs, formatter and tokeniser | round-trip lemma per type, composed; C33 for the text level |
| C20 | partial | same | range of the reader, exact condition |
| C21 | proved | layer names | string lemmas |
| C22 | proved | hexadecimal stamps | digit induction |
| C23 | partial | flip | case analysis, exact condition |
| C24 | proved | rotate | exact arithmetic laws |
| C25 | proved | PartialEq | reduction to equality of shapes |
| C26 | partial | BoundingBox | order laws; side-attained lemma; refutation |
| C27 | proved | CheckFix for Module | case analysis over the four passes |
| C28 | proved | same | fixed points |
| C29 | proved | same | filter/append lemmas |
| C30 | proved | same | order laws |
| C31 | proved | `rename_net` | induction |
| C32 | proved | text API | induction |
| C33 | proved | formatter.rs as a state machine | mutual induction over trees, for every formatter state |
| C34 | proved | same | mutual induction |
| C35 | proved | layout ser.rs, de.rs | as C19 |
| C36 | proved | unknown sections | same |
| C37 | proved | `change_net_name` | independent list of name occurrences |
| C38 | proved | `update_net_names` | induction |
| C39 | partial | `replace_block` | substring search lemmas |
| C40 | proved | `is_unnamed_net`, `set_unnamed_net` | regular-expression match modelled and characterised |
| C41 | proved | Setup | induction |
| C42 | proved | `get_module`, `modify_module` | induction |
| C43 | proved | adjust | exact arithmetic laws |
| C44 | proved | layout bounding box | order laws |
| C45 | proved | `equal_no_net` | case analysis |
| C46 | proved | `add_net`, `add_netclass` | list lemmas |
| C47 | proved | read_kicad_file | first-character and head-symbol arguments: the grammars exclude each other |
| C48 | proved | same | case analysis over the probing order |
| C49 | proved | Bound | lattice laws |
| C50 | proved | reference_ord | digit lemmas |
| C51 | proved | allowed characters | induction |
| C52 | proved | fp_lib_table.rs | as C19 |
| C53 | proved | project.rs | direct |
| C54 | proved | flatter, dump | induction over finding trees |
| C55 | proved | file system as a map; a write is refused, breaks off after any number of characters, or succeeds | C19/C35/C47; induction over histories of writes |
| C56 | proved | quote-aware splitter | induction over characters |
| C57 | partial | layout reader | range of the reader, exact condition |
| C58 | proved | s-expression readers | no reader step panics |
| C59 | proved | footprint editing | invariant preserved by every edit, induction over sessions |
| C60 | proved | layout editing | same |
| C61 | proved | schematic editing | same, with a bound on field numbers |
| C62 | proved | nets of a layout | invariant over sessions; renaming as a map on names |
| C63 | proved | src/bin/identify.rs with the notices of the schematic reader | C47/C48/C90 |
| C64 | proved | dump_layout, adjust_layout, dump_footprint | C35/C19/C43, induction over repetitions |
| C65 | proved | klc_kicad_mod, klc_symbol_lib | C27/C18/C55 |
| C66 | proved | symbol library reader and writer | range of the reader (`ReadSymbol`), lines a printed library is read as (`readLns`: one carriage return less at line ends), what they are read back as even if they do not fit (`parse_show_line`, `parse_show_self`), C14 for sufficiency; decidable witnesses for each failing kind, incl. a symbol smuggled in by stray carriage returns |
| C67 | proved | symbol library reader | locality of `parseSymbol` (result does not depend on what follows), induction over the symbols with fuel monotonicity |
| C68 | proved | formatter state machine, footprint writer | refinement: the formatter is proved equal to a recursive layout function driven by a declarative table of rules (`Spec/Printing`), then that function is evaluated for every kind of element (`Spec/FootprintText`) |
| C69 | proved | formatter state machine, board writer | the same refinement (`Fm.toText_board`), header and elements evaluated (`Spec/BoardText`), induction over the elements with the two flags of the formatter |
| C70 | proved | formatter state machine, library table writer | the same refinement, evaluated for a library line; line breaks counted by induction over the libraries |
| C71 | proved | footprint and symbol checks, configuration, section numbers | the check functions are rewritten as a concatenation over a declarative catalogue of 25 rules (each with its condition and report), duplicates excluded by the keys of the reports |
| C72 | proved | board reader | each section is a field change (`Lay.Change`); a fold of changes is characterised by the last one of each name |
| C73 | proved | schematic reader | locality: every block reader depends only on the lines it consumes (`Sch.Local`), so the content is a sequence of items and reading is a fold over it; induction over the items |
| C74 | proved | the character loop of the word splitter | declarative grammar `Cut` (Spec/Cut) of which the loop computes the unique derivation; induction over derivations and over the length of the line |
| C75 | proved | the whole symbol library reader | declarative grammar (Spec/SymbolGrammar, Spec/Numerals); one equivalence per kind of line, then induction over the lines |
| C76 | proved | the whole schematic reader | declarative grammar (Spec/SchematicGrammar); one equivalence per kind of line (Lemmas/SchGrammar, SchSheetGrammar), induction over the lines of components, sheets and files |
| C77 | proved | the whole footprint reader, on top of the assumed tree reader | declarative grammars of trees (Spec/TreeGrammar) and footprints (Spec/FootprintGrammar); induction over texts for the trees (Lemmas/TreeGrammar), one equivalence per reader (Lemmas/TreeParts, FpGrammar) |
| C78 | proved | layout/de.rs and the reader of trees as in C77; the grammar is Spec/LayoutGrammar, built from relations that do not mention the reader | each reader is shown equivalent to its grammar relation (Lemmas/LayGrammar, Lemmas/LayBoardGrammar); collecting loops by induction over the parts |
| C79 | proved | fp_lib_table.rs; the grammar is Spec/TableGrammar | equivalence of each reader with its relation, as in C77 |
| C80 | proved | The formatter's state machine (`Fm.ser`), all tree shapes | Mutual induction over trees and sequences: in a state where the nearest list has no say (`Idle`), a tree without followed names is written as `flat` and leaves the state as it was; combined with the section-by-section text of C69. |
| C81 | proved | The same functions as C23, C24 and C43, with the number type `Fl` (finite binary64) | Error bounds of rounding to nearest (`Lemmas/Rounding`), Sterbenz-style exactness near 360, exactness on a grid; witnesses evaluated by the kernel. |
| C82 | proved | The remaining constructors, setters and derived defaults of footprint and board elements; a generator as a list of part descriptions. | Each made element is compared field by field with its description and shown to be savable; then C19 and C35. The words written for the points are read off the serialised list; the lost line by running the reader on it. |
| C83 | proved | The serialisers of footprints, boards and tables; a small language of forms (word, name, number, whole number, list, sequence, choice, repetition) written down from the file format, independent of the serialisers. | Each serialiser is matched against its form by combinator lemmas; the text level comes from the parser of C01 reading back the formatter's output. The exact conditions by inverting the forms of lines, arcs, circles and tracks. |
| C84 | proved | f64 with infinities and NaN as a concrete type F64 on top of the finite numbers Fl, with operations, comparison, reading and writing as in Rust; the codec, check, equality and bounding box model at that type. | TextLaws and ZeroLaws are proved for F64, so that all theorems on saving and reading that need only these hold for it; the overflow limit from the rounding lemmas; the rest by evaluating the operations at NaN, the bounding box by induction over the elements. |
| C85 | proved | Cut texts as p of p ++ r; writes with a fate as in C55; the readers as they are. | Lexer and parser lemmas: after the closing parenthesis of a complete expression nothing may follow, so a proper beginning is never complete; the marks of the six kinds of file (C47) for the other readers. For the line formats: the lines of a beginning are those of the whole up to the last one, and the grammars of C75 and C76 are read from left to right; cuts after complete items for the losses; decimal digits for the wrong position. |
| C86 | proved | The writers and readers as they are; Schematic.print with the overflow of the i32 counter of sheet labels. Fitting as in C01, C14, C19; LosslessLayout says separately what of a layout is kept, also unparsed elements. | The round trips give one direction; for the other, what is read always fits (C66, C20, C57), so an object equal to something read fits. Counting by induction over labels and sheets. |
| C87 | proved | Sessions as lists of changes with runLib, unfinished symbols (everything but the two fields fits) as invariant; the defaults as written and derived. | Induction over the session keeps the invariant; with it fitting is the same as having two fields, and C86 says that exactly fitting libraries survive. Panics of each step by cases. |
| C88 | proved | The readers as they are; crlf replaces each line feed, PlainEnds says that no line end is converted yet, mapAtoms changes the atoms of a tree. | Induction over the text for lines (exact condition) and for the four modes of the lexer; the parser commutes with changing atoms by induction over tokens; then the probes of read_kicad_file one by one. |
| C89 | proved | The kinds of `KicadError` as the type `Err`; the parsers, the read and write functions and the sheet functions as in C47, C48, C55 and C26. | A predicate `Fails k` that a call fails only with kind k is shown compositionally for every parser function (Lemmas/ErrKind), by induction over the loops; the read functions follow with C48. |
| C90 | proved | The parser functions of schematic.rs again with the lines they print (`Told`), the file readers and the programs on top of it. | Result equality by induction over the loops; the notices by induction along the grammar of C76 (`CompLines`, `SheetLines`, `ContentLines`) against an independent relation `ContentNotices`; deletion by constructing the kept lines along the grammar; saved files with C01. |
| C91 | proved | The functions of the schematic reader again, with the texts of their messages (`Model/SchematicMsg.lean`, outcome type `Said`); `Spec/Blame.lean` says for each kind of message what it claims about a line, in terms of the words of the line (`Cut`, `SpacedWords`) and the number words of the grammar. | Each function forgets to the function of `Model/Schematic.lean` (so the accepted texts are the same). Each line reader only gives messages that are true of its line; a combinator calculus (`Tr`: the failing line, determinism whatever follows, and a completion of the lines before it) goes through the title block, wires and texts, by induction through the loops of components and sheets and through the main loop; the completion of a broken-off item is given explicitly. The converse direction of the equivalence and uniqueness follow. |
| C92 | proved | The symbol library reader with the texts of its messages (`Model/SymbolLibMsg.lean`); a separate relation that says which message is true of which line (`Spec/LibBlame.lean`). | Every function is traced: an error either comes from the end of the lines or from a line after which it cannot be avoided, and up to it a fixed ending completes the symbol; induction over fields, drawings and symbols, with the grammar of C75 for the symbols already read. |
| C93 | proved | The file functions with whole errors, texts of the operating system and of symbolic_expressions as parameters (`Model/FilesMsg.lean`). | Forgetting the texts gives the functions of C47/C48; the probes are unfolded into a chain of rejections; that no parser says 'unexpected KIND in NAME' itself follows from C91 and C92. |
| C94 | proved | `Module::fix`, `Module::bounding_box`, `Layout::adjust` and `Layout::bounding_box` over `Fl`, the rounded binary64 numbers. | Rounding errors of sums, differences, products and square roots are bounded by a relative error of 2^-53; taking minima and maxima does not enlarge errors, so the error of a box is that of one element (induction over elements and points). Circles: the square of the computed radius is compared with the true one. Boards of points: rounding is monotone, so adding commutes with minima and maxima. A via at 0.2 with size 0.1 moved by 0.3 shows that the box is not always exact. |
| C95 | proved | Box functions of all drawn elements of boards and footprints with the rounded binary64 numbers `Fl`; shapes are predicates on rational points (`OnDisc`, `OnVia`, `OnLine`, `OnPad`) that do not use the model's functions | Relative errors of differences, squares, sums and the rounded square root give the computed radius within 80(R+1) 2^-53 of the true one (`Fl.radius_near`); the corner points of C26 and C44 then bound all points of the shapes, for straight lines by convexity; the exceptions by computation of the boxes |
| C96 | proved | The message versions of all readers in src/footprint/de.rs and src/layout/de.rs that can return a message of their own (Model/TreeMsg.lean); Display of trees and Debug of numbers are parameters | Each reader is shown to forget to the reader without messages, and its messages are characterised spot by spot (Lemmas/TreeMsg, FpMsg, LayMsg) by an independent relation over the grammar of C77/C78 (Spec/TreeBlame); loops by induction |
| C97 | proved | The readers of all five formats and the quote-aware splitter (already modelled); normalised spacing is a separate small specification. | The readers commute with normalising the spacing of every line (induction over the lines, with the splitter's loop state as invariant: behind a blank outside quotes the state is that of a fresh part); the tokens of a tree text do not change when white space is inserted at a word edge outside quotes (induction over the text, for all lexer states). Three theorems show where spacing does matter: fixed lines, tabs, quotes. |
| C98 | proved | read_module, read_schematic, read_layout, read_symbol_lib, schematic::parse_file, symbol_lib::parse_file | equality of outcomes, using that a text has the mark of at most one kind of file (C48) and the error kinds of the parsers (C89) |
| C99 | proved | the editing calls of footprints, boards, components and schematics (`Spec/Edits`, `Spec/SchematicEdits`); independence of calls is a table in `Spec/Order` | pairs by cases, sessions by induction on permutations with an invariant (one designator per module, usual field names) |
| C100 | proved | `Lib::get_expanded_uri` with a model of shellexpand (Model/Expand.lean) | induction over the division of the address (Spec/Uri.lean), which is shown to exist and to be unique |
| C101 | proved | the writers of schematics, footprints and boards with the KiCad formatter, and the editing calls | blocks of lines for schematics; for trees a relation between trees that differ in some atoms or in some lists of atoms, carried through the formatter by mutual induction |
| C102 | proved | the decoders of src/footprint/de.rs and src/layout/de.rs | through the grammar predicates: names of parts of each kind of list form a sublist of a list without repetition, so a permutation that is also read is the identity; exchanges of neighbours are followed by induction; C102_lost_ends records a defect of the code (ends of footprint lines given in the wrong order are silently read as the origin) |
| C103 | proved | The readers of schematics and symbol libraries (`Sch.parseStr`, `Lib.parseStr`, `Lib.parseSymbol`). | The files are described by pieces of lines with what they say (the grammars of C75 and C76); exchanging neighbours that do not say things of the same kind leaves each list of values of one kind unchanged (induction on the exchanges), and a permutation of lines carries over to the values by induction on the permutation. |
| C104 | proved | The readers of all five kinds of files and the writers of schematics, footprints and tables (`Sch.parseStr`, `Lib.parseStr`, `Fp.Module.de`, `Lay.Layout.de`, `Tbl.FpLibTable.de`, `Sch.Schematic.print`, `Fp.toText`, `Tbl.toText`). | A merge is an inductive relation on four lists; maps, filters and concatenations preserve it (induction on the merge).  The grammars of C75 and C76 and the characterisations of the readers of trees say that each piece is read by itself, so that the merge of the pieces becomes the merge of the values; a value that is there once is taken from the version that changed it. |
| C105 | proved | All writers and readers of the four kinds of files over `F64` (`Verif.Basic.F64`: reading to the nearest number, writing the shortest decimal that reads back). | A unit in the 15th digit is wider than the distance of neighbouring binary numbers, so rounding keeps decimals of up to 15 digits apart (`Fp64.decimal_apart`); hence no shorter decimal reads back, and the search for the shortest finds the decimal itself (`Fp64.showMag_decimal`). The writers look at numbers only through their text, their sign, whether they are zero and whether height and width of a drill differ (`Alike`); the exact and the floating point image of the same nanometres agree on all of these, so the texts agree (structural induction over all records), and the round trips C01, C14, C19 and C35 give the rest. |
| C106 | proved | `F64.ofStr` (`Verif.Basic.F64`), which stands for `str::parse::<f64>` of the standard library, against an independent grammar and an independent definition of the nearest number (`Spec.NumberTexts`). | Each branch of the reader corresponds to one production of the grammar (`readNumber_iff`), so the grammar is unambiguous; rounding to nearest even is shown to be the only number that satisfies the definition of nearest (`nearest_round64`, `Spec.NearestTo.unique`). |
| C107 | proved | All readers (`Fp.parse`, `Lay.parse`, `Sch.parse`, `Lib.parseStr`, `readKicadFile`), once over `F64` and once over the exact numbers meant by the texts (`Spec.Number`). | Readers touch numbers only by making them from texts and literals, so a function that takes the one kind of number to the other on texts and literals takes what is read to what is read (`ReadsAs`, by following every reader step by step); rounding is such a function by C106. Saving uses `Alike` from C105. |
| C108 | proved | `Lay.Layout.adjust` and `Prog.adjustLayout` over `F64`, compared with the same functions over whole nanometres (`Nm`) and with the exact meaning of the saved numbers (`Spec.Number`, C107). | Every rounding is off by at most 2^-32 mm for numbers up to 2^20, so after k moves a coordinate is off by at most 2k+1 such units (`off_add`), and the decimal that is written by one more (`off_nm`); for k up to 1000 that is less than half a nanometre. A board of pairs (what the coordinate is, what it should be) carries this invariant through the moves (`moveAll_tracked`), and boards that agree after replacing numbers correspond number by number (`Lay.Layout.pairs`). |
| C109 | proved | `SymbolLib.show`, `Symbol.show`, `Field.show`, `Draw.show`, `showAliases`, `Symbol.setName`, and the edits of C87 (`Spec.LibEdit`). | A saved library is the lines of its symbols between fixed lines (`Lib.saved_iff`), so an edit leaves the lines of other symbols in place (`edit_lines`); within the symbol the lines are compared one by one. The merge follows because `Merged` is kept by `flatMap`. |
| C110 | proved | `Fp.parse`, `Fp.toText`, `Lay.parse`, `Lay.toText` with all their readers and writers. | For what reads back, the text written for `m` is the text written for `Spec.settle m` (`Module.ser_settle`, `Layout.ser_settle`), and `settle m` is one of the footprints C19 shows to survive; so it is what is read. Conversely a text that was read shows that each part was written in full (`reads_of_ok`). Only two facts about numbers are used (`Spec.SelfLaws`), proved for binary64 with infinities and NaN. |
| C111 | proved | `Module.fixTold`: `fix` with its `info!` records (the `debug!` records are left out). | The earlier steps of `fix` change neither the number of courtyard lines nor the bounding box (`Fp.fixed_parts`), so the record and the lines are computed from the same box. The text of a number contains neither comma nor space (`TextLaws`), so the record can be cut apart again. |
| C112 | proved | `Lay.parseNoted`: the reader with its `debug!` records, each as the tree it is about (how a tree is printed in a record is left out). | Induction over the rest of a zone and over the sections of the file: the records logged so far are the notices of the elements read so far (`Zone.fillRestNoted_spec`, `Layout.stepNoted_spec`, `Layout.fillNoted_spec`). |
| C113 | proved | The edits of C59, C60, C61 and C87 mixed with saving and reading (`Spec.fpSession`, `Spec.boardSession`, `Spec.schSession`, `Spec.libSession`), on the readers and writers of all four kinds of files. | Every edit commutes with what saving does to the data (`Spec.settle_run`, `Spec.settleBoard_run`), readability is kept by edits (`Spec.reads_run`, `Spec.readsBoard_run`), and writing does not see the difference (`ser_settle`); induction over the session. The findings of the style check are compared part by part (`C113_findings`), with a footprint that does lose one (`C113_finding_forgotten`). |
| C114 | proved | Flip, Rotate and BoundingBox of footprints, on any numbers whose arithmetic does not prefer a sign (`Spec.SymLaws`: exact numbers and binary64). | The corners of the flipped footprint are those of the footprint in the mirror (`Spec.corners_flip`) and C26 says which of them the box is made of; witnesses for what is lost; integer arithmetic for angles and arcs. |
| C115 | proved | Display of components, fields, texts, symbols and update_field. | What is written is the value between two texts that do not depend on it (`Spec.Around`), so the value can be chosen to contain the end of one component, the elements, and the beginning of another; C01 and C14 say how the result is read. |
| C116 | proved | `Path::parent` and `Path::join` on Unix as functions on texts (Model/Paths.lean); the walk over sheets as for C09 | Induction on the depth of the walk and on the sheets for the two results, then induction on the chain of sheets with the invariant that each schematic's own file name lies in the directory. The negative part is a project with two sheets elsewhere, evaluated in the kernel, and a theorem for every absolute name. |
| C117 | proved | `read_file` and `write_file` on disks of bytes, with UTF-8 from Lean's library (Model/Bytes.lean) | The decoder inverts the encoder (library theorem), so a cut that decodes is a prefix of the text; refinement of the byte disk to the text disk, step by step and by induction over series of writes; induction over the characters for lone bytes; C55, C68 and C85 for what saved files read as. |
| C118 | proved | The same functions with wrapping sums, and `fix` and `flatter` with their `unwrap`s as explicit panics (Model/Release.lean) | The wrapped sum is the sum exactly within 64 bits; invariants of the folds over fields and sheets; C06 and C12 for the checked functions; after adding the second reference it is found. |
| C119 | proved | No new model; nesting of texts (an automaton that knows about quotes) and of trees in Props/C119 | Induction over the derivations of the text grammar; one bound per writer; C77 and C78 for what was read; the unknown parts of a board are found in the tree by induction over its parts. |
| C120 | proved | `Model/BoxMsg.lean`: measuring and fixing with all records of the library, those of level debug included; how `{:?}` prints numbers is left out, such a record is kept as the values it prints. | Induction over the elements for each of the three loops (`Fp.boundWarned_steps`, `Lay.boundWarned_steps`, `Sch.boundWarned_steps`); the values logged by `fix` are those of the footprint before the earlier steps (`Fp.fixed_measures`). |
| C121 | proved | `Prog.dumpLayoutLog`, `Prog.adjustLayoutLog`: the log of a run, be it finished or not, with the records of the reader as the trees they are about. | A text another reader accepts or panics on does not begin like a layout (C47), so the reader of layouts is silent on it (`Prog.foreign_silent`); hence reading a layout logs what C112 says, whatever the file (`Prog.readNotes_eq`). |
| C122 | proved | `Module.fix`, the writers and the formatter, as in C29 and C68. | The text of the file is taken apart element by element (C68); the old elements after `fix` are related to those before it one by one; lines are compared from the end of the file with the invariant that the first lines agree. |
| C123 | proved | `add_net`, `add_netclass`, `update_element`, the writer of boards and the formatter, as in C46, C41 and C69. | The text of the board is taken apart section by section (C69); the lines of the added text are computed and shown to be what is inserted. |
| C124 | proved | `Module.check`, `Module.fix`, `adjust`, `rotate`, `flip`, `rename_net`, `Adjust for Layout`, `Symbol.check`, as in C27, C71 and C18. | The view of the rules is a separate relation between footprints; the check is shown to respect it, and each operation to keep to it element by element. |
| C125 | proved | The bounding boxes of footprints, boards and schematics and `Bound::update`, as in C26, C44, C12 and C49. | The running union is shown to depend only on the set of boxes that have bounds (associative, commutative up to boxes without bounds, idempotent); each part's share is shown to depend only on the room it takes up. |
| C126 | proved | Comparison of footprint elements as in C25, boxes, checks and fixes of footprints as in C26 to C29. | Equality of elements is shown to be kept by each of the operations; boxes and findings are shown to depend only on what equality preserves, through C124 and C125. |
| C127 | proved | The editing functions as in C05, C13, C17, C32, C37, C41, C46 and the sessions of C59 to C61. | Exact conditions by case analysis on each element; that nothing shrinks by induction over the sequence of edits, with a count of the things in a file that every call leaves alone or raises. |
| C128 | proved | The editing functions as in C28, C37, C41, C44 and C127. | The four parts of a fixed footprint (C28) are computed for the edited footprint; that the second fix finds the added text only if there was none and adds no attribute and no courtyard; the nets by C37, where a board is its names and the rest. |
| C129 | proved | `all_components` and the file functions as in C09 and C116. | Uniqueness by mutual induction over hierarchies; the bound by induction over the levels; the files that reach it are texts that the writer produces, read back by C01. |
| C130 | proved | The component functions as in C05 and C06. | Induction over the calls with one lemma for what a call does to names, values and numbers (`Table.step`). |
| C131 | proved | `reference_ord` as in C50; the sort is Lean's stable merge sort by the keys, standing for `sort_by_key` of the standard library. | Permutation, order and stability of the sort; ties are filtered out of both orders to show that the order of collecting remains visible. |
| C132 | proved | `modify_module` and `get_text_mut` as in C42 and C27; the loop of the program is the specification's own. | The loop splits at each module into the entries that hit it and those that pass it by (`Carry.run_module`); induction over the elements for all lists. |
| C133 | proved | The net name updates, module access and `fix` as in C37, C38, C42 and C27. | The netlist as a function of the elements one by one; induction over elements and over sessions; injectivity on the names in use for the equivalence. |
| C134 | proved | The functions of the schematic as in C08 and C13; the loops of the program are the specification's own. | Induction over the list with the first component of a reference being the only one; the second round by composing two renamings at once. |
| C135 | proved | update_net_names, is_unnamed_net, set_unnamed_net, modify_module and set_reference as in C38, C40, C42 and C32; the closure is the specification's own. | The exact set of recognised names of C40, counting separators, and the netlist of C133. |
| C136 | proved | set_reference, set_net, get_module, the comparison, and saving and reading boards, as in C32, C82, C42, C25 and C35; the loops of the program are the specification's own. | Case analysis on elements, the netlist of C133, the comparison lemmas of C126 and the round trip of C35. |
| C137 | proved | adjust, update_net_names, the lists, get_module, bounding_box and saving and reading boards, as in C43, C38, C42, C44, C49 and C35; the loops of the program are the specification's own. | Lists of two parts throughout; the box by associativity of the union and all boxes being upright. |
| C138 | proved | find, set_name, modify_components and update_name, as in C17, C08 and C13; saving and reading libraries as in C86; the loop over the symbols is the specification's own. | Induction on the symbols with a relation between the list before and the list after, and the edit lemmas of C87. |
| C139 | proved | modify_component, components, all_components, component_by_reference and the bounding box, as in C08, C09, C11 and C12; saving and reading as in C01. | Induction on lists of sheets and elements; the loops over two lists of sheets are one after the other. |
| C140 | proved | get_expanded_uri, and saving and reading tables, as in C100 and C52; the lookup is the specification's own. | Lemmas about the first element of a list that fits, with the expansion lemmas of C100 and the round trip of C52. |
| C141 | proved | all_components, modify_component, modify_components, get_field_value, update_field, add_or_update_field and update_reference, as in C05, C08, C09, C13 and C130; the counting is the specification's own. | Counting lemmas for lists, the split of C08 at the first component with a reference, C130 and C139. |
| C142 | proved | pins and set_name of symbols, pads and all edits of footprints, and the comparison, as in C17, C59, C87, C126 and C133. | Induction on the sequences with one lemma per edit that says which pad or pin it adds. |
| C143 | proved | Removing elements from the public list `Layout.elements`, with `get_module`, `get_modules`, `nets`, `netclasses`, `bounding_box`, the writer and the reader. | Induction over the elements. For the box an order between boxes (one empty or enclosed by the other) is shown to be kept by every update; swapping never happens when no via has a negative size. |
| C144 | proved | Removing elements from the public list `Schematic.elements`, with `components`, `component_by_reference`, `all_components`, `bounding_box`, the writer and the reader. | Induction over elements and sheets, with the lemmas of C139 on walks through sheets. For the box the order between boxes of C143 is used; the growing box is a counterexample. |
| C145 | proved | Choosing from and extending the public list `SymbolLib.symbols`, with `find`, `components`, the writer and the reader of libraries. | `find` is shown to be the first symbol with the property; the rest follows from laws of filtering, C14, C139 and C144. The case of aliases is a counterexample. |
| C146 | proved | `components`, `modify_component`, `modify_components` and `update_reference` of schematics, `get_module`, `modify_module` and `adjust` of boards and `set_reference` of footprints. | Which designators there are on a board is reduced to the reference texts of its footprints; each change maps both sets in the same way. Uses C137, C139, C143 and C144. The case of two units is a counterexample. |
| C147 | proved | `parse_file_for_sheet`, `all_components`, `component_by_reference` and `bounding_box` of schematics with the writer and the reader. The program itself is part of the specification. | Induction on the depth and the list of sheets: taking components commutes with the walk, and the search is the first hit in what the walk gives. Saving is C01. |
| C148 | proved | Removing sheets from the public list `Schematic.sheets`, with `components`, `all_components`, `component_by_reference`, `bounding_box`, the writer and the reader. | Induction over the list of sheets for the walk, with the search as the first hit in what the walk gives (C147). The appearing component is a concrete case. |

## Where the code disagrees with the property one would want

Each of these is a theorem; the strongest true part is kept beside it
(`_partial`, or an "exactly if" theorem).

* Schematics (C02, C07): a field numbered 3 or lower loses its explicit name when
  saved (`C02_named_low_field_lost`, `C07_low_number_lost`); component names, sheet
  ids and paper sizes that were quoted with blanks are written without quotes
  (`C02_quoted_name_lost`).  `C02_resave_iff_partial` and `C07_kept_iff` are exact.
* Schematics (C04): blank lines, files cut inside a section, short label lines and
  files that end after the library list make the parser panic.  `C04_panic_cause` lists all causes.
* Schematics (C10): a sheet that contains itself makes `all_components` recurse for ever.
* Schematics (C12): the left edge of the bounding box is computed from y coordinates;
  wires, connections and texts do not count; a sheet at the edge of the number range
  makes it panic (`C12_file_panics`).
* Schematics (C01): a freshly made `Sheet` or `Schematic` is written in a form that is rejected.
* Symbol libraries (C15): a bold field is written with the letter `O`, which the reader
  rejects.  C14: a symbol with fewer than two fields makes the writer panic.  C16: a cut file makes the reader panic.  C66: the reader accepts libraries that saving changes.  C67: footprint filters are lost.
  C18: the pin grid check accepts multiples of 10 instead of 100.
* Footprints (C20): a pad with `rect_delta` cannot be read back, a hole without width
  is lost, negative letter sizes and time stamps are unreadable.  C22: negative stamps.
  C23: flipping twice does not restore justified texts.  C26: lines and arcs drawn from
  right to left are not covered by the bounding box.
* Layers (C21): text after a second dot is dropped.
* Formatter (C34): a list without a leading atom leaks an indentation level (the data stay right, C33).
* Layouts (C57): a negative zone priority turns into a huge number that cannot be read.
  C44: a module without position does not move.  C62: `rename_net` on one module
  leaves its pads on an undeclared net.
* Net names (C39): of two directly repeated blocks the second is not replaced.  C40:
  text after the closing parenthesis of an automatic net name is dropped.
* `reference_ord` (C50) panics on the empty string and looks at one letter only.
* `dump_footprint` (C64) prints the name first, so its output is not a footprint file.

## Validation

* The model is executable (instance `Nm`).  Reading and printing every file under
  /repo/tests/data with it gives the file back byte for byte: `schematic1.sch`,
  `symbol_lib1-cache.lib`; the footprint and the two layouts except for the line end
  at the end of the file, `fp-lib-table` except for the quotes around `${...}` (the
  quoting rule is a parameter).
* The boxes asserted by the tests of /repo (src/footprint/data.rs 1771-1813,
  tests/layout2.rs 41-46) come out of the model with the instance `F64`, digit for digit.
* `seeded/LOG.jsonl` records edits of the model that correspond to realistic bugs, with
  the theorems that fail.  Entries whose `properties` list is empty are controls:
  edits that break no claim.
