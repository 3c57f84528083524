{"id": "C01", "title": "A saved schematic reads back as the same schematic", "statement": "For every well-formed Schematic value s (fields, names and texts made of representable characters, numbers in i64 range), schematic::parse_str(s.to_string()) succeeds and yields a schematic with the same libraries, description, sheet count, elements in order, and sheets in order.", "quantifier": "all well-formed schematics: any number of libraries, components, fields, wires, connections, no-connects, texts, unknown lines, sheets and sheet labels, with arbitrary contents", "why_tests_cant": "a test fixes one file; the writer and reader are two separate pieces of code that must agree on every combination of element kinds, padding widths, quoting and optional parts", "anchors": ["src/schematic.rs: impl Display for Schematic/Description/Component/ComponentField/Wire/Connection/NoConnect/Text/Sheet/SheetLabel", "src/schematic.rs: parse, parse_str, parse_component, parse_sheet, parse_text, parse_wire", "src/lib.rs: parse_split_quote_aware, parse_split_quote_aware_n"]}
{"id": "C02", "title": "A schematic that was read survives a save/load cycle", "statement": "Whenever schematic::parse_str(t) returns Ok(s), schematic::parse_str(s.to_string()) returns Ok of a schematic equal to s. (Fails for fields numbered 3 or lower that carry an explicit name: the writer drops that name; and for texts that keep a carriage return at the end of a line: reading drops one each time.)", "quantifier": "all texts t the parser accepts", "why_tests_cant": "the set of accepted files is infinite and includes files written by other tools; only the shipped sample is tested", "anchors": ["src/schematic.rs: parse_str, parse_component_field, impl Display for ComponentField"]}
{"id": "C03", "title": "Reading a schematic always terminates", "statement": "schematic::parse_str(t) finishes for every text t: its read loops always advance and never spin.", "quantifier": "all texts", "why_tests_cant": "non-termination on some unusual text cannot be excluded by running finitely many texts", "anchors": ["src/schematic.rs: parse, parse_component, parse_description, parse_sheet, ParseState"]}
{"id": "C04", "title": "Reading a damaged schematic reports an error instead of aborting the program", "statement": "schematic::parse_str(t) returns Ok or Err and never panics. (False for the pinned code: blank lines, truncated sections, short label lines and so on. What does hold: any text whose first line is not the schematic header is rejected with Err, and a text makes the parser panic only if it has one of eight listed kinds of damage. The texts that make it panic are exactly those that follow the grammar up to some point and then break off in one of a few ways. What is left of a good file that was cut after a line is read with the first elements and sheets, or makes the parser panic; only two cuts give Err.)", "quantifier": "all texts, including truncated and malformed ones", "why_tests_cant": "every truncation point and malformed line would need to be tried", "anchors": ["src/schematic.rs: parse, parse_text, ParseState::here, char_at", "src/lib.rs: read_kicad_file"]}
{"id": "C05", "title": "Updating a component field sets exactly that field", "statement": "After Component::update_field(name, value), every field with that name has that value, every other field keeps its value, all fields keep their name, number, place and formatting except that every field numbered above 1 becomes invisible. After Component::add_or_update_field(template, name, value), get_field_value(name) is Some(value) and no other field's value, name or number changes; the returned FieldUpdate is New exactly if no such field existed, Same exactly if it had that value already (then nothing changes), and Update(old value) otherwise.", "quantifier": "all components, all field names, all values, including duplicate field names", "why_tests_cant": "depends on field order, duplicates and prior values, an unbounded space", "anchors": ["src/schematic.rs: Component::update_field, add_or_update_field, add_new_field, get_field_value"]}
{"id": "C06", "title": "A new component field gets a fresh number", "statement": "Component::add_new_field gives the new field a number strictly greater than the number of every existing field, and adds exactly one field at the end of the list.", "quantifier": "all components with field numbers below i64::MAX", "why_tests_cant": "freshness must hold for arbitrary, unsorted, sparse or negative existing numbers", "anchors": ["src/schematic.rs: Component::get_available_field_num, add_new_field"]}
{"id": "C07", "title": "A field added through the API is still there after saving and loading", "statement": "After add_or_update_field(name, value) on a component that lacks that field, saving and loading the schematic gives a component whose field of that name has that value. (False for the pinned code when the new number is 3 or lower: the name is not written.)", "quantifier": "all components and field names", "why_tests_cant": "depends on which field numbers the component already had", "anchors": ["src/schematic.rs: Component::add_new_field, impl Display for ComponentField, parse_component_field"]}
{"id": "C08", "title": "Modifying a component by reference touches only that component", "statement": "Schematic::modify_component(reference, f) applies f to the first component with that reference and leaves every other element, the libraries, description and sheets unchanged and in order; if no component has the reference the schematic is unchanged. modify_components applies f to each component once, in order.", "quantifier": "all schematics, references and update functions", "why_tests_cant": "quantifies over arbitrary update functions and schematic contents", "anchors": ["src/schematic.rs: Schematic::modify_component, modify_components"]}
{"id": "C09", "title": "Collecting all components walks the sheet hierarchy completely and in order", "statement": "When every sheet file referred to (transitively) can be read and the hierarchy is acyclic, Schematic::all_components() returns exactly the components of the schematic followed by those of each sheet's sub-hierarchy in sheet order; if any sheet cannot be read the call is an error.", "quantifier": "all finite acyclic sheet hierarchies over all file systems", "why_tests_cant": "hierarchies of every depth and shape", "anchors": ["src/schematic.rs: Schematic::all_components, parse_file_for_sheet, filename_for_sheet"]}
{"id": "C10", "title": "Collecting components terminates exactly on hierarchies without cycles", "statement": "all_components() terminates whenever the sheet hierarchy is acyclic. On a hierarchy in which a sheet file (indirectly) contains itself it never terminates normally.", "quantifier": "all file systems", "why_tests_cant": "non-termination cannot be observed by a finite test", "anchors": ["src/schematic.rs: Schematic::all_components, component_by_reference_int"]}
{"id": "C11", "title": "Finding a component by reference", "statement": "component_by_reference(r) returns a component with reference r that belongs to the schematic's own elements if any of those has it (the first such), otherwise one from a sub-sheet; it never returns a component with another reference.", "quantifier": "all schematics, references and sheet hierarchies", "why_tests_cant": "depends on arbitrary hierarchies and duplicates", "anchors": ["src/schematic.rs: Schematic::component_by_reference, component_by_reference_int"]}
{"id": "C12", "title": "The bounding box of a schematic covers its contents", "statement": "Schematic::bounding_box() covers the position of every component, every wire end and every sheet rectangle. (False for the pinned code: the x position of components is replaced by y.)", "quantifier": "all schematics", "why_tests_cant": "depends on arbitrary positions and their combination", "anchors": ["src/schematic.rs: impl BoundingBox for Schematic, Component, Element, Sheet", "src/lib.rs: Bound"]}
{"id": "C13", "title": "Changing a component reference or name is consistent everywhere", "statement": "After Component::update_reference(r), the component's reference and the value of each of its reference fields (number 0) are r; nothing else changes. After update_name likewise for name and the value fields (number 1).", "quantifier": "all components and strings", "why_tests_cant": "arbitrary field lists", "anchors": ["src/schematic.rs: Component::update_reference, update_name"]}
{"id": "C14", "title": "A saved symbol library reads back as the same library", "statement": "For every well-formed SymbolLib value (no bold field), symbol_lib::parse_str(lib.to_string()) yields the same symbols in order, with the same fields, aliases, drawings, pins and flags.", "quantifier": "all well-formed symbol libraries, any number of symbols, aliases, fields and drawing items", "why_tests_cant": "writer and reader must agree for every combination of pin types, shapes, visibility, alignment and drawing line", "anchors": ["src/symbol_lib.rs: impl Display for *, parse, parse_symbol, parse_field, parse_pin, parse_rect"]}
{"id": "C15", "title": "Bold fields of a symbol cannot be saved", "statement": "A well-formed symbol library saved with to_string can be loaded again exactly if none of its fields is bold; every library with a bold field is written in a form that symbol_lib::parse_str rejects with an error. (A user would want bold fields to survive; the pinned code does not do that.)", "quantifier": "all symbol libraries that are well-formed apart from bold fields", "why_tests_cant": "the claim is about every such library, not one", "anchors": ["src/symbol_lib.rs: impl Display for Field, parse_field, bool_from_string"]}
{"id": "C16", "title": "Reading a symbol library always terminates, and rejects foreign files with an error", "statement": "symbol_lib::parse_str(t) finishes for every t; if t does not start with the three header lines it is Err, not a panic. It panics only if, after the header, the text has one of six listed kinds of damage (an empty line, a field line with an empty part or a short style, an end of file after a symbol comment, after a DEF line, after a field or in a list of footprint filters), and each kind does occur. The texts that make it panic are exactly those that follow the grammar of libraries up to some symbol and then break off before its drawing, have an empty line there, or a field with a missing letter; all others that do not follow the grammar are Err. What is left of a good file that was cut after a line, if it is read at all, has the first symbols of the file.", "quantifier": "all texts", "why_tests_cant": "infinitely many texts", "anchors": ["src/symbol_lib.rs: parse, parse_symbol, ParseState"]}
{"id": "C17", "title": "Finding and renaming symbols", "statement": "SymbolLib::find(f) returns the first symbol satisfying f, if any. Symbol::set_name(n), for nonempty n, makes the symbol's name and its value field n, marks the symbol as name-hidden exactly by the leading ~, and changes nothing else.", "quantifier": "all libraries, predicates, symbols with at least two fields and names", "why_tests_cant": "arbitrary predicates and contents", "anchors": ["src/symbol_lib.rs: SymbolLib::find, Symbol::set_name"]}
{"id": "C18", "title": "Symbol style check: pins", "statement": "Pin check reports a grid finding iff its position is off the checked grid, a length finding iff the length is too short or too long or not a multiple, and so on; a symbol without findings satisfies all checked rules. The documented grid for pins is 100 mil. (The pinned code only checks multiples of 10.)", "quantifier": "all pins and symbols", "why_tests_cant": "all coordinates", "anchors": ["src/symbol_lib.rs: impl CheckFix for Pin, Rectangle, Draw, Symbol, SymbolField"]}
{"id": "C19", "title": "A saved footprint reads back as the same footprint", "statement": "For every well-formed footprint Module m, footprint::parse(footprint::to_string(m)) = Ok(m): same name, elements in order, each with all its attributes.", "quantifier": "all well-formed modules, any number and order of elements", "why_tests_cant": "each optional attribute doubles the cases; the positional reader depends on which optional parts are present", "anchors": ["src/footprint/ser.rs: impl IntoSexp for *", "src/footprint/de.rs: impl FromSexp for *", "src/footprint/mod.rs: parse, to_string", "src/formatter.rs: KicadFormatter"]}
{"id": "C20", "title": "A footprint that was read can be saved and read again", "statement": "Whenever footprint::parse(t) = Ok(m), footprint::parse(footprint::to_string(m)) = Ok(m). (False for the pinned code for pads with rect_delta and drills without positive width.)", "quantifier": "all texts the footprint parser accepts", "why_tests_cant": "infinite set of accepted texts", "anchors": ["src/footprint/ser.rs: impl IntoSexp for Pad", "src/footprint/de.rs: impl FromSexp for Pad"]}
{"id": "C21", "title": "Layer names survive reading and writing", "statement": "Layer::from_string followed by display gives back the same layer name, and display followed by from_string gives back the same layer, for every layer name with at most one dot. (Names with two or more dots lose everything after the first.)", "quantifier": "all layer names / all layers", "why_tests_cant": "arbitrary user layer names", "anchors": ["src/footprint/data.rs: Layer::from_string, impl Display for Layer, LayerSide, LayerType"]}
{"id": "C22", "title": "Time stamps survive reading and writing", "statement": "A tedit/tstamp value in 0..2^63 written by the footprint writer is read back as the same number. Negative values are written in a form the reader rejects.", "quantifier": "all i64 values", "why_tests_cant": "2^64 values", "anchors": ["src/footprint/ser.rs: Element::TEdit, Element::TStamp", "src/footprint/de.rs: parse_hex"]}
{"id": "C23", "title": "Flipping a footprint twice restores it", "statement": "Module::flip applied twice gives the original module. (False for the pinned code when a text is left- or right-justified.) One flip mirrors the board side of the module, its pads, texts and graphics.", "quantifier": "all modules", "why_tests_cant": "all element combinations", "anchors": ["src/footprint/data.rs: trait Flip, impl Flip for Module, Element, Pad, FpText, Effects, Layer, At"]}
{"id": "C24", "title": "Rotating footprints keeps angles normalised and is invertible", "statement": "Rotating by r with |r|<=360 keeps every rotation in [0,360); rotating by r and then by -r restores a module whose rotations were in that range; rotation never changes positions, sizes, nets or layers.", "quantifier": "all modules and angles", "why_tests_cant": "continuous parameter", "anchors": ["src/footprint/data.rs: trait Rotate, impl Rotate for At, Pad, FpText, Module"]}
{"id": "C25", "title": "Footprint comparison ignores net names and designators and is an equivalence", "statement": "Comparison of footprint elements is reflexive, symmetric and transitive; it is unaffected by the nets of pads, by the text of reference and value, and by the board side of layers; any other difference in pads, graphics or texts makes elements different.", "quantifier": "all pairs and triples of modules", "why_tests_cant": "equivalence laws quantify over all triples", "anchors": ["src/footprint/data.rs: impl PartialEq for Layer, FpText, Pad; derive PartialEq for Module, Element"]}
{"id": "C26", "title": "The bounding box of a footprint covers its pads and fabrication graphics", "statement": "Module::bounding_box() covers every pad rectangle and every fabrication-layer line, circle, arc and polygon. (False for the pinned code for lines/arcs whose start is right of/below their end.)", "quantifier": "all modules", "why_tests_cant": "arbitrary geometry", "anchors": ["src/footprint/data.rs: impl BoundingBox for Module, Pad, FpLine, FpPoly, FpCircle, FpArc", "src/lib.rs: Bound::update"]}
{"id": "C27", "title": "Fixing a footprint removes the style violations it can fix", "statement": "After Module::fix(config), Module::check(config) reports nothing except: missing reference, missing value, and through-hole pads with an smd attribute. In particular for a module that has reference and value texts and no such attribute conflict, check after fix is empty.", "quantifier": "all modules and all configurations", "why_tests_cant": "every combination of texts, layers, pads, attributes", "anchors": ["src/footprint/data.rs: impl CheckFix for Module (check, fix)", "src/checkfix.rs: Config, CheckFix"]}
{"id": "C28", "title": "Fixing a footprint is idempotent", "statement": "m.fix(c); m.fix(c) leaves m as after one m.fix(c).", "quantifier": "all modules and configurations", "why_tests_cant": "all modules", "anchors": ["src/footprint/data.rs: Module::fix"]}
{"id": "C29", "title": "Fixing a footprint does not disturb other content", "statement": "Module::fix keeps the module name, all pads, graphics, models, descriptions and user texts other than the reference/value/%R texts, in order; new elements are only appended.", "quantifier": "all modules and configurations", "why_tests_cant": "all modules", "anchors": ["src/footprint/data.rs: Module::fix"]}
{"id": "C30", "title": "The generated courtyard encloses the footprint", "statement": "When fix adds a courtyard to a module without one, the four added lines form a closed rectangle that encloses the module's bounding box on every side with the margin required by the rule (0.15/0.1/0.25 mm), drawn on the front courtyard layer.", "quantifier": "all modules and configurations", "why_tests_cant": "arbitrary geometry", "anchors": ["src/footprint/data.rs: Module::fix (courtyard part), config courtyard offset"]}
{"id": "C31", "title": "Renaming a net inside a footprint", "statement": "Module::rename_net(old, new) changes the net name of exactly those pads whose net name is old to new, keeps net numbers, other pads and all other elements.", "quantifier": "all modules and names", "why_tests_cant": "arbitrary pads", "anchors": ["src/footprint/data.rs: Module::rename_net, Pad::rename_net"]}
{"id": "C32", "title": "Reading and setting footprint texts", "statement": "Module::set_reference(old, new) changes exactly the reference texts that show old, to new, and nothing else; get_reference_text/get_value_text return the first text of that kind.", "quantifier": "all modules and strings", "why_tests_cant": "arbitrary element lists", "anchors": ["src/footprint/data.rs: Module::set_reference, get_reference_text, get_value_text, at, is_reference_with_name"]}
{"id": "C33", "title": "Pretty printing never changes the data", "statement": "For every s-expression tree and every starting indentation, the text produced by the KiCad formatter differs from the compact text only in white space between tokens, and tokenises to the same tree. It is read back as the same tree exactly if every atom survives: a quoted atom if each run of backslashes in front of a double quote or at its end has even length.", "quantifier": "all s-expression trees, all formatter states", "why_tests_cant": "the line-breaking rules depend on nesting context and counters; all trees must be covered", "anchors": ["src/formatter.rs: KicadFormatter::open, element, close, want_indent_*"]}
{"id": "C34", "title": "The formatter's nesting is balanced", "statement": "After printing any tree whose lists start with a nonempty atom, the formatter's indentation and context stack are what they were before. (Lists that do not start with an atom leak one indentation level.)", "quantifier": "all trees and formatter states", "why_tests_cant": "all trees", "anchors": ["src/formatter.rs: KicadFormatter::open, close"]}
{"id": "C35", "title": "A saved layout reads back as the same layout", "statement": "For every well-formed Layout l, layout::parse(layout::to_string(l)) = Ok(l): version, host, general settings, page, layers, setup, nets, net classes, modules, graphics, tracks, vias, zones and unknown elements, in order.", "quantifier": "all well-formed layouts", "why_tests_cant": "all combinations of optional attributes and element orders", "anchors": ["src/layout/ser.rs: impl IntoSexp for *", "src/layout/de.rs: impl FromSexp for *", "src/layout/mod.rs: parse, to_string"]}
{"id": "C36", "title": "Unknown layout sections are preserved", "statement": "Any top-level s-expression of a board file whose name the library does not know is kept verbatim, in its position among the elements, and written back verbatim.", "quantifier": "all s-expressions with an unknown name", "why_tests_cant": "arbitrary nested content", "anchors": ["src/layout/de.rs: impl FromSexp for Layout, Element", "src/layout/ser.rs: Element::Other"]}
{"id": "C37", "title": "Renaming a net in a layout is complete and exact", "statement": "After Layout::change_net_name(old, new): every net, net-class member, pad and zone that had name old has name new; every other name, every net number and everything else is unchanged. If old != new no occurrence of old remains. If new was unused, renaming back restores the layout.", "quantifier": "all layouts and all names", "why_tests_cant": "all layouts", "anchors": ["src/layout/data.rs: Layout::change_net_name, update_net_names, Net::rename, NetClass::rename"]}
{"id": "C38", "title": "A failing bulk net update stops at the first failure", "statement": "Layout::update_net_names(f) applies f to each net name in element order; if f fails on some name the call fails, the names before it are already updated and the names after it are untouched.", "quantifier": "all layouts and all update functions", "why_tests_cant": "quantifies over arbitrary update functions", "anchors": ["src/layout/data.rs: Layout::update_net_names"]}
{"id": "C39", "title": "Replacing a hierarchical block in a net name", "statement": "NetName::replace_block(from,to) replaces each /from/ part of the net path by /to/, so no /from/ part remains when to does not contain it. (False for the pinned code when the part is directly repeated.) Names without /from/ are unchanged.", "quantifier": "all names and blocks", "why_tests_cant": "all strings", "anchors": ["src/layout/data.rs: NetName::replace_block, rename"]}
{"id": "C40", "title": "Automatically named nets", "statement": "NetName::is_unnamed_net recognises Net-(<component>-Pad<pin>) and set_unnamed_net(c) changes exactly the component part: afterwards is_unnamed_net gives (c, same pin) provided c has no '-', '(' or ')'; on a name that is not of this form it fails and changes nothing.", "quantifier": "all strings", "why_tests_cant": "all strings", "anchors": ["src/layout/data.rs: NetName::is_unnamed_net, set_unnamed_net"]}
{"id": "C41", "title": "Board setup entries behave like a map", "statement": "Setup::update_element(k,v) then get(k) gives v; get of other keys is unchanged; pcbplotparams and order of other entries are unchanged; updating twice equals the last update.", "quantifier": "all setups, keys, values", "why_tests_cant": "all key sets incl. duplicates", "anchors": ["src/layout/data.rs: Setup::get, update_element"]}
{"id": "C42", "title": "Looking up and modifying a board module by reference", "statement": "Layout::get_module(r) returns the first module whose reference text is r; modify_module(r,f) applies f to that module only and everything else is unchanged; both fail exactly if there is none.", "quantifier": "all layouts, references and functions", "why_tests_cant": "arbitrary functions", "anchors": ["src/layout/data.rs: Layout::get_module, modify_module"]}
{"id": "C43", "title": "Moving a layout", "statement": "Layout::adjust(0,0) changes nothing; adjust(a) then adjust(b) equals adjust(a+b); adjust(a) then adjust(-a) restores the layout; nets, net classes, setup and unknown sections are unaffected.", "quantifier": "all layouts and offsets (exact arithmetic)", "why_tests_cant": "continuous parameters", "anchors": ["src/layout/data.rs: impl Adjust for Layout, Element, Zone, GrText, ...", "src/footprint/data.rs: impl Adjust for At, Xy, Module"]}
{"id": "C44", "title": "The bounding box of a layout covers its contents and moves with it", "statement": "Layout::bounding_box() covers all ends of board lines, arcs, tracks, dimensions, text positions, via circles and zone corners; moving such a layout by (x,y) moves its bounding box by (x,y).", "quantifier": "all layouts and offsets", "why_tests_cant": "arbitrary geometry", "anchors": ["src/layout/data.rs: impl BoundingBox for Layout, Element, GrLine, GrArc, Via, Segment, Zone, Dimension, GrText", "src/lib.rs: Bound"]}
{"id": "C45", "title": "Comparing net classes without their nets", "statement": "NetClass::equal_no_net(other) holds exactly when all settings other than the list of nets agree: adding, removing or renaming nets does not change the result, any other difference does; it is an equivalence relation.", "quantifier": "all pairs of net classes", "why_tests_cant": "all pairs", "anchors": ["src/layout/data.rs: Segment::equal_no_net, Via::equal_no_net, Zone::equal_no_net"]}
{"id": "C46", "title": "Adding nets and net classes", "statement": "After Layout::add_net(num, name), nets() contains that net after all earlier nets and all other elements keep their relative order; add_netclass likewise keeps every existing element.", "quantifier": "all layouts", "why_tests_cant": "arbitrary element lists", "anchors": ["src/layout/data.rs: Layout::add_net, add_netclass, nets, netclasses, modules"]}
{"id": "C47", "title": "A file is recognised as the kind it is", "statement": "Each text parses as at most one of: footprint, schematic, layout, symbol library, project, footprint-library table. read_kicad_file returns that kind, and read_module/read_schematic/read_layout/read_symbol_lib/read_project/read_fp_lib_table succeed exactly when the matching parser accepts the text (with the same value).", "quantifier": "all texts", "why_tests_cant": "mutual exclusion of six grammars over all texts", "anchors": ["src/lib.rs: read_kicad_file, read_module, read_schematic, read_layout, read_symbol_lib, read_project, read_fp_lib_table", "src/project.rs"]}
{"id": "C48", "title": "Asking for a specific kind reports that parser's error", "statement": "If the text is not of the expected kind, read_kicad_file with that expectation returns that parser's error unless an earlier kind in the probing order accepts the text, in which case that kind is returned and the typed reader reports a kind mismatch.", "quantifier": "all texts and expectations", "why_tests_cant": "all texts", "anchors": ["src/lib.rs: read_kicad_file, Expected"]}
{"id": "C49", "title": "Bounding boxes form a union algebra", "statement": "Bound::update is associative, commutative and idempotent on bounded boxes, has the default box as identity, contains both operands, and is the smallest such box; width and height of a swap_if_needed-normalised box are nonnegative.", "quantifier": "all bounds", "why_tests_cant": "algebraic laws over all triples", "anchors": ["src/lib.rs: Bound::new, update, swap_if_needed, width, height"]}
{"id": "C50", "title": "Reference designators sort by letter and number", "statement": "reference_ord orders prefix+number designators by first letter and then numerically (R2 before R10), for all numbers below 2^63; it panics only on the empty string.", "quantifier": "all designators", "why_tests_cant": "all numbers", "anchors": ["src/lib.rs: reference_ord"]}
{"id": "C51", "title": "Allowed-character rule for names", "statement": "is_allowed_1_7(s) holds iff every character of s is a letter, digit, '_', '-' or '.' (ASCII); the list of findings has one entry per violating character.", "quantifier": "all strings", "why_tests_cant": "all strings", "anchors": ["src/checkfix.rs: allowed_1_7, allowed_1_7_items, is_allowed_1_7"]}
{"id": "C52", "title": "A saved footprint-library table reads back", "statement": "For every table with representable strings, fp_lib_table::parse(to_string(t)) = Ok(t), order preserved.", "quantifier": "all tables", "why_tests_cant": "all contents", "anchors": ["src/fp_lib_table.rs: parse, to_string, impl IntoSexp/FromSexp for FpLibTable, Lib"]}
{"id": "C53", "title": "Project files are kept verbatim", "statement": "project::parse_str accepts exactly the texts that start with update= and keeps the complete text unchanged; it never panics.", "quantifier": "all texts", "why_tests_cant": "all texts", "anchors": ["src/project.rs: parse_str, Project"]}
{"id": "C54", "title": "Collecting style findings loses nothing", "statement": "Flattening nested findings keeps every finding exactly once in order, whatever the nesting.", "quantifier": "all finding trees", "why_tests_cant": "arbitrary nesting", "anchors": ["src/checkfix.rs: CheckFixData, flatter, dump_on_logger"]}
{"id": "C55", "title": "Writing a footprint or layout to disk and reading it back", "statement": "write_module(m, f) followed by read_module(f) gives m; write_layout(l, f) followed by read_layout(f) gives l, for well-formed values, for every prior content of the file system, and no other file changes. A write reports success exactly if everything was written; if the file cannot be created nothing changes, and a write that breaks off leaves the beginning of the text. In every sequence of writes, each file has in the end what the last write to it that was not refused left there.", "quantifier": "all values, file systems and file names", "why_tests_cant": "all values and histories", "anchors": ["src/lib.rs: write_module, write_layout, read_module, read_layout", "src/util.rs: read_file, write_file"]}
{"id": "C56", "title": "Field values may contain any text without quotes", "statement": "Whatever text without a double quote or line break is stored in a component field, title block entry or symbol field, including leading/trailing/multiple spaces and empty text, is read back exactly after saving. A text with a double quote is not.", "quantifier": "all strings", "why_tests_cant": "all strings", "anchors": ["src/lib.rs: parse_split_quote_aware_int", "src/schematic.rs: parse_component_field, word_and_qstring", "src/symbol_lib.rs: parse_field"]}
{"id": "C57", "title": "A layout that was read can be saved and read again", "statement": "Whenever layout::parse(t) = Ok(l), layout::parse(layout::to_string(l)) = Ok(l). (False for the pinned code for negative zone priorities, and for the pads and drills listed in C20 inside modules.)", "quantifier": "all texts the layout parser accepts", "why_tests_cant": "infinite set of accepted texts", "anchors": ["src/layout/ser.rs: impl IntoSexp for Layout", "src/layout/de.rs: impl FromSexp for Layout", "src/layout/de.rs: impl FromSexp for Zone"]}
{"id": "C58", "title": "Reading a footprint, layout, library table or project never panics", "statement": "footprint::parse, layout::parse, fp_lib_table::parse and project::parse_str return a value or an error for every text: no text makes them panic or run for ever. A text that does not start with an opening parenthesis (after white space) is rejected by the first three.", "quantifier": "all texts", "why_tests_cant": "all texts", "anchors": ["src/footprint/de.rs", "src/layout/de.rs", "src/fp_lib_table.rs: FromSexp", "src/project.rs: parse_str"]}
{"id": "C59", "title": "A footprint survives any editing session", "statement": "Starting from a footprint that can be saved, any sequence of flip, rotate, adjust, set_reference, rename_net, append and fix (with numbers and names that fit the format) leaves a footprint that can be saved; saving and reading gives exactly the edited footprint; saving and reading anywhere in the middle of the session changes nothing about its final result; and a footprint that was fixed, saved and read passes the same check.", "quantifier": "all savable footprints, all edit sequences of any length", "why_tests_cant": "unbounded edit histories; the composition of edits with the file format is never exercised as a whole", "anchors": ["src/footprint/data.rs: Module", "src/footprint/ser.rs: impl IntoSexp for Module", "src/footprint/de.rs: impl FromSexp for Module", "src/checkfix.rs: trait CheckFix"]}
{"id": "C60", "title": "A board survives any editing session", "statement": "Starting from a layout that can be saved, any sequence of adjust, change_net_name, add_net, add_netclass, setup updates, modify_module and appended elements returns, leaves a layout that can be saved, and saving and reading gives exactly the edited layout. Saving and reading in the middle changes nothing about the final result.", "quantifier": "all savable layouts, all edit sequences of any length", "why_tests_cant": "unbounded edit histories", "anchors": ["src/layout/data.rs: impl Layout", "src/layout/ser.rs: impl IntoSexp for Layout", "src/layout/de.rs: impl FromSexp for Layout"]}
{"id": "C61", "title": "A schematic survives any editing session", "statement": "Starting from a schematic that fits the file format, any sequence of component edits through modify_component (update_reference, update_name, update_field, add_or_update_field), added sheets and appended elements, with values that fit the format and as long as there is room for new field numbers, returns, leaves a schematic that fits the format, and saving and reading gives exactly the edited schematic. Edits addressed to components never change how many components there are.", "quantifier": "all fitting schematics, all edit sequences of any length", "why_tests_cant": "unbounded edit histories", "anchors": ["src/schematic.rs: impl Component", "src/schematic.rs: Schematic::modify_component", "src/schematic.rs: parse"]}
{"id": "C62", "title": "The nets of a board stay consistent", "statement": "If every net used by a pad, a zone or a net class of a layout is declared, the same holds after change_net_name (whatever the two names) and after every editing session whose new elements refer to nets declared by then. change_net_name leaves the net numbers of all pads and zones as they are, keeps equal net names equal and, if the new name was not in use, different names different. Renaming the net in a single module instead leaves a pad on an undeclared net.", "quantifier": "all layouts, all names, all edit sequences", "why_tests_cant": "global invariant over arbitrarily many elements and edits", "anchors": ["src/layout/data.rs: Layout::change_net_name", "src/layout/data.rs: Layout::modify_module", "src/footprint/data.rs: Module::rename_net"]}
{"id": "C63", "title": "identify names the kind of a file correctly", "statement": "For every file system and file name, the identify program answers \"found: K\" with the word for kind K exactly if the parser of kind K accepts the file, and \"found: unknown: NAME\" exactly if the file is readable and all six parsers reject it. Before the answer it prints nothing, unless the file begins like a schematic; then it prints the notices about skipped lines (C90), and nothing else. It panics exactly without an argument, for unreadable files and for files on which the schematic or symbol library parser panics, and it always ends.", "quantifier": "all file systems, all arguments", "why_tests_cant": "all file contents", "anchors": ["src/bin/identify.rs: main", "src/lib.rs: impl Display for KicadFile", "src/lib.rs: read_kicad_file"]}
{"id": "C64", "title": "The printing programs print files that read back", "statement": "For every file that reads as a savable layout l, the output of dump_layout, sent to a file, reads back as l, and that of adjust_layout as l with every board point moved by (100, 0) and nothing else changed, any number of times in a row. The output of dump_footprint is the footprint name, a line end and a text that reads back as the footprint; because of the name the whole output does not. The programs panic exactly without an argument or for files that cannot be read as the kind wanted, and always end.", "quantifier": "all file systems, all arguments, all savable layouts and footprints, any number of repetitions", "why_tests_cant": "all layouts; repeated runs", "anchors": ["src/bin/adjust_layout.rs: main", "src/bin/dump_layout.rs: main", "src/bin/dump_footprint.rs: main"]}
{"id": "C65", "title": "The style check programs report exactly the findings", "statement": "For every file that reads as a footprint, klc_kicad_mod logs nothing if the check of the footprint is clean and otherwise a heading with its name followed by one record per finding, in order, with the level, section, rule, item and message of the finding; it is silent exactly for footprints that keep the rules, in particular for a fixed footprint that was written with write_module. klc_symbol_lib does the same for one symbol of the library after the other and is silent exactly if no symbol has a fault. Both panic exactly without an argument or for files that cannot be read as the kind wanted, and always end.", "quantifier": "all file systems, all arguments", "why_tests_cant": "all footprints and libraries", "anchors": ["src/bin/klc_kicad_mod.rs: main", "src/bin/klc_symbol_lib.rs: main", "src/checkfix.rs: dump_on_logger"]}
{"id": "C66", "title": "Which symbol libraries survive a save/load cycle", "statement": "If symbol_lib::parse_str(t) returns Ok(l), then l.to_string() succeeds and parse_str of it returns Ok of an equal library exactly if every symbol has at least two fields, the symbol name, reference, aliases, pin names and pin numbers are words without blanks, no field is bold, no field number is negative, fields 0 to 3 have their fixed names, and neither a last alias nor an uninterpreted drawing line ends with a carriage return. Saving panics exactly if a symbol has less than two fields. Whatever is read back after saving a library from a file without stray carriage returns survives from then on; with stray carriage returns a file that is read as one symbol can be saved as one that is read as two. Hence libraries with quoted names, named low fields or bold fields that the reader accepts are changed by saving them.", "quantifier": "all texts the reader accepts", "why_tests_cant": "the set of accepted files is infinite and includes files written by other tools", "anchors": ["src/symbol_lib.rs: parse_str, parse_symbol, parse_field, impl Display for Symbol, impl Display for Field"]}
{"id": "C67", "title": "Symbol library files can be concatenated; end mark, headings and filters", "statement": "If a text without end mark is read as library l when put after the header, then the text followed by any other text is read as the symbols of l followed by those of the other text, and fails exactly if the other text fails. Anything after the line '#End Library' is ignored and the line itself may be missing. The comment line before a symbol may be any line but the end mark. A list of footprint filters ($FPLIST) after the fields of a symbol does not change the symbol that is read, so filters are lost when a library is saved.", "quantifier": "all texts; all symbols that fit the format and all filter lines", "why_tests_cant": "all combinations of files", "anchors": ["src/symbol_lib.rs: parse, parse_symbol"]}
{"id": "C68", "title": "What a footprint file looks like", "statement": "The text that data::write or footprint::to_string produces for a footprint is '(module NAME', the texts of its elements in order, and a closing parenthesis on a line of its own, where the text of an element depends on that element alone. Every list is placed according to a fixed table of layout rules: pads, lines, polygons, circles, texts, models and positions start on a line of their own, indented one level deeper than the footprint; arcs continue the current line; polygon points are broken into lines of a fixed number of points. Replacing an element therefore changes the text of that element and nothing before or after it.", "quantifier": "all footprints, all start levels, all quoting policies", "why_tests_cant": "the formatter is a state machine with a stack and counters; that its output for one element is independent of everything written before it is a claim about all histories", "anchors": ["src/formatter.rs: KicadFormatter, Indent, impl Formatter for KicadFormatter", "src/footprint/ser.rs", "src/footprint/mod.rs: module_to_string"]}
{"id": "C69", "title": "What a board file looks like", "statement": "The text of a board is '(kicad_pcb', the header (version, host, general, page, title block, layers, setup) section by section, the elements one after the other, and a closing parenthesis on a line of its own. The text of an element depends on the element alone; what separates it from the one before depends only on whether footprints end here and whether it is the first track. A footprint looks in a board exactly as in a file of its own that starts one level deeper. Replacing an element by another one of the same sort changes the text of this element and nothing else.", "quantifier": "all boards whose unknown elements are not themselves named after the structural keywords, all start levels and quoting policies", "why_tests_cant": "the formatter keeps state across the elements of the whole file", "anchors": ["src/formatter.rs: KicadFormatter, Indent", "src/layout/ser.rs", "src/layout/mod.rs: layout_to_string"]}
{"id": "C70", "title": "What a footprint library table looks like", "statement": "The text of a footprint library table is '(fp_lib_table', then for every library in order one line '(lib(name N)(type T)(uri U)(options O)(descr D))' indented by one level, then a closing parenthesis on a line of its own. If no entry contains a line break, the number of line breaks is the number of libraries plus one.", "quantifier": "all tables, all start levels and quoting policies", "why_tests_cant": "tables of any length", "anchors": ["src/fp_lib_table.rs: impl IntoSexp", "src/formatter.rs: KicadFormatter"]}
{"id": "C71", "title": "Checking a footprint is a catalogue of rules", "statement": "The result of checking a footprint is the list of reports of the broken rules of a fixed catalogue, in the order of the catalogue; a footprint for which no rule is broken yields an empty list, no rule is reported twice for the same thing, and each report names the section of the library convention it comes from. Section numbers are printed in a fixed form.", "quantifier": "all footprints and configurations", "why_tests_cant": "every combination of broken rules", "anchors": ["src/footprint/checkfix.rs", "src/checkfix.rs: KLCSection, KLCData", "src/symbol_lib.rs: impl CheckFix"]}
{"id": "C72", "title": "The header of a board: last one wins, stated defaults", "statement": "In a board file each of the header sections (version, host, general, page, layers, setup) may occur any number of times and at any place among the elements: the last one counts, and if there is none a stated default is used (version 4, host pcbnew/custom, page A4, thickness 1.6 and zero counts, no layers, empty setup). Exchanging a header section with a neighbour of another name does not change what is read.", "quantifier": "all board expressions that are read", "why_tests_cant": "any number and order of sections", "anchors": ["src/layout/de.rs: FromSexp for Layout", "src/layout/data.rs: Default for Layout, General, Host, Page, Setup"]}
{"id": "C73", "title": "Schematic files can be put together; the end mark ends nothing", "statement": "If a schematic text made of whole lines is read, then adding further text to it reads as the contents of both (elements and sheets appended, libraries and layer line of the first, title block of the last that has one), exactly if the addition is read after a bare header; otherwise the whole fails in the same way. The end mark may be missing or stand anywhere, what follows it is still read. Writing one more element or sheet at the end adds exactly it; an empty component or sheet block is read as the default one.", "quantifier": "all texts", "why_tests_cant": "all pairs of texts, also ones this crate did not write", "anchors": ["src/schematic.rs: parse, ParseState, parse_component, parse_sheet, parse_description"]}
{"id": "C74", "title": "Lines are cut into words in one way, described by a grammar", "statement": "Cutting a line of a schematic or symbol library into words always succeeds and gives exactly the words of the quoting grammar: words are separated by spaces, a word is made of characters and quoted pieces, a mark that is never closed belongs to the last word. With a limit of n words the rest of the line is the last word, and there is an error exactly if fewer than n words come out; never more than n+1 do.", "quantifier": "all lines and limits", "why_tests_cant": "all lines, including ones with unbalanced quotation marks", "anchors": ["src/lib.rs: parse_split_quote_aware_int, parse_split_quote_aware, parse_split_quote_aware_n"]}
{"id": "C75", "title": "The language of symbol library files", "statement": "A text is read as a symbol library exactly if its lines follow the grammar of such files (heading, per symbol the DEF line, fields, skipped footprint list, aliases, drawings, end marks), and then the library read is the one the lines stand for, which is unique; integers are 64 bit decimals with an optional sign.", "quantifier": "all texts and libraries", "why_tests_cant": "both directions over all texts: nothing outside the language is accepted and nothing inside is rejected or misread", "anchors": ["src/symbol_lib.rs: parse, parse_symbol, parse_field, parse_pin, parse_rect", "src/schematic.rs: i64_from_string"]}
{"id": "C76", "title": "The language of schematic files", "statement": "A text is read as a schematic exactly if its lines follow the grammar of schematic files (first line, LIBS lines, EELAYER lines, then title blocks, components, sheets, wires, connections, texts and other lines in any order), and then the schematic read is the one the lines stand for, which is unique: within components and sheets the last line of a kind counts, fields, paths and labels are collected, unknown lines are ignored; outside them unknown lines are kept. Reading a named file differs only in keeping the name.", "quantifier": "all texts and schematics", "why_tests_cant": "both directions over all texts: nothing outside the language is accepted and nothing inside is rejected or misread", "anchors": ["src/schematic.rs: parse, parse_description, parse_component, parse_sheet, parse_wire, parse_pos, parse_text, parse_split_n"]}
{"id": "C77", "title": "The language of footprint files", "statement": "A text is read as a footprint exactly if it stands for one according to the grammar of footprint files (parenthesised lists of bare and quoted words; a module with its name and elements; per element the parts in their order, which are optional and which defaults they have, which names of points, layers, pad types and shapes exist), and then the footprint read is the one the text stands for, which is unique; every other text gives an error.", "quantifier": "all texts and footprints", "why_tests_cant": "both directions over all texts: nothing outside the language is accepted and nothing inside is rejected or misread", "anchors": ["src/footprint/de.rs", "src/footprint/mod.rs: parse", "src/footprint/data.rs: Layer::from_string, PadType::from_string, PadShape::from_string"]}
{"id": "C78", "title": "Board files form a language and the reader recognises it", "statement": "There is a grammar of board files (version, host, general, page, layers, setup, footprints, nets, net classes, graphics, dimensions, zones, segments, vias and foreign lists, each with its parts, the optional ones marked) such that layout::parse succeeds with a board exactly when the text is derived from the grammar with that board as its value. Headings may be given in any order and the last one counts, elements keep their order, foreign lists are kept as they are. No text has two values, and every text outside the grammar is reported as an error.", "quantifier": "all texts and all boards", "why_tests_cant": "A sample of files shows neither that every text of the language is accepted, with the value the grammar assigns, nor that every other text is refused; both range over infinitely many texts.", "anchors": ["src/layout/de.rs", "src/layout/data.rs", "src/layout/mod.rs"]}
{"id": "C79", "title": "Footprint library tables form a language and the reader recognises it", "statement": "fp_lib_table::parse succeeds with a table exactly when the text is a list named fp_lib_table whose entries are lists named lib that begin with name, type, uri, options and descr in this order, each holding one word; the value of the table is those words in file order. No text has two values, and every other text is reported as an error.", "quantifier": "all texts and all tables", "why_tests_cant": "The statement is about all texts, those accepted and those refused; tests only visit finitely many of them.", "anchors": ["src/fp_lib_table.rs:65-96"]}
{"id": "C80", "title": "What the library does not know is written on one line", "statement": "An S-expression in which no list has a name the pretty printer follows is written by the formatter on one line: opening parenthesis, the elements with exactly one blank between two of them, closing parenthesis, at every nesting depth, also when lists are empty or start with another list. Consequently a board section kept as Element::Other comes out of layout_to_string as one such line, after a blank (and a line break when a footprint comes before it), and everything before and after it in the file is independent of its content.", "quantifier": "for all trees without followed names, all quoting policies and starting levels; for all layouts, all positions and all unknown sections", "why_tests_cant": "The formatter keeps a stack of names, a flag per kind of section and a counter while it walks the tree; unnamed lists push a hole on the stack. Whether that state ever leaks into unknown content depends on every tree shape, and tests only contain the sections KiCad writes.", "anchors": ["src/formatter.rs:67", "src/formatter.rs:250", "src/formatter.rs:280", "src/formatter.rs:352", "src/layout/ser.rs"]}
{"id": "C81", "title": "Moving, rotating and flipping with 64-bit floating point numbers", "statement": "With numbers rounded as f64 does: (1) a layout moved by an offset and back differs only in points, each coordinate by at most 2^-51 of its own size plus that of the offset; positions given in nanometres within a metre keep their number of nanometres; on a common binary grid the layout is restored bit for bit. (2) Rotating by at most a full turn keeps rotations between 0 and 360 degrees and is the rotation asked for up to a full turn and 2^-42 degrees; for multiples of 2^-43 degrees the result is below 360 and rotating back restores the footprint bit for bit. (3) Flipping three times is flipping once, bit for bit; flipping twice keeps positions bit for bit and rotations up to 2^-45 degrees. In general none of the three is undone bit for bit, and a rotation can come out as exactly 360: witnesses are given.", "quantifier": "for all layouts, footprints, offsets and angles in binary64 (finite, no overflow)", "why_tests_cant": "Rounding errors depend on every bit of the operands; a test sees a handful of convenient values such as 90 degrees or whole millimetres, for which nothing is rounded.", "anchors": ["src/footprint/data.rs:587-591", "src/footprint/data.rs:593-598", "src/footprint/data.rs:611-622", "src/footprint/data.rs:713-718", "src/layout/data.rs:93-105", "src/layout/data.rs:500-511"]}
{"id": "C82", "title": "What is built with the constructors survives saving and reading", "statement": "A footprint built from Module::new by appending texts, pads, lines, circles, arcs and polygons made with new/default/make and the setters (set_layer, set_effects, from_font, Layers::append, set_net, set_drill), and a board built from Layout::default with such footprints and texts, lines, arcs, circles, tracks and vias made from their defaults, can be saved and read, and what is read consists of exactly the parts that were asked for, in their order. Footprint lines, circles and arcs made from their default are written with the words start, end and center; board lines, circles, arcs and tracks made from theirs are written with the word xy instead (a defect no reader of this library notices). A footprint line whose points were given another word is read, without an error, as a line from the origin to the origin.", "quantifier": "all names, all lists of parts with values the format has room for, all quoting policies", "why_tests_cant": "A test builds a few objects; that every combination of setters and part kinds survives is a statement about all programs that build one, and the wrong keywords are invisible to round-trip tests because the reader ignores them.", "anchors": ["src/footprint/data.rs:40-49", "src/footprint/data.rs:555-572", "src/footprint/data.rs:654-659", "src/footprint/data.rs:990-992", "src/footprint/data.rs:1088-1132", "src/footprint/data.rs:1208-1235", "src/layout/data.rs:338-584", "src/layout/data.rs:602-614"]}
{"id": "C83", "title": "What is saved has the form KiCad documents", "statement": "A saved footprint, board or library table is, as a text, one expression of the documented file form: every list has its name, its fields in the documented order, words from the documented choices, decimal numbers where numbers belong, whole numbers within 64 bits, and hexadecimal time stamps; optional fields may be absent. This needs the points of an element to carry the words of their places. For board lines, arcs, circles and tracks that is exactly the condition, so those made from their defaults are never written in the documented form (a defect); footprints built with the constructors always are.", "quantifier": "all footprints, boards and tables whose texts can be written, all indentation levels and quoting policies", "why_tests_cant": "A round trip through this library cannot see a form error that its own reader tolerates; agreement with a grammar is a statement about every saved file.", "anchors": ["src/footprint/ser.rs:1-305", "src/layout/ser.rs:1-390", "src/fp_lib_table.rs", "src/formatter.rs"]}
{"id": "C84", "title": "NaN and infinite numbers slip through reading, checking and saving", "statement": "Over all 64-bit floating point numbers: the words nan, inf and infinity in any spelling are read as numbers, and decimal numbers from the largest number and half a unit upwards become infinite. Such values are saved as NaN and inf, and survive saving and reading everywhere except: a letter size that is NaN becomes zero, and a hole whose width is NaN is read without complaint but makes the saved pad unreadable. The style check takes NaN letter sizes for the right ones. An element is equal to itself exactly if none of its compared numbers is NaN. A board element with NaN corners has no influence on the bounding box.", "quantifier": "all numbers, footprints, boards and configurations with finite sizes", "why_tests_cant": "Which combinations of special values and places are harmless is a statement over all places and values; round-trip tests use ordinary numbers.", "anchors": ["src/footprint/de.rs:40-60", "src/footprint/ser.rs:59-156", "src/footprint/data.rs:285", "src/footprint/data.rs:1384-1646", "src/layout/data.rs:624-633", "src/lib.rs:297-322"]}
{"id": "C85", "title": "What a half-written or truncated file reads as", "statement": "A text that was cut off anywhere is never read as something else if it was a footprint, a board or a footprint library table: unless only white space is missing, all six readers reject the rest, so that read_module and read_layout fail after a write that broke off, and read_kicad_file answers Unknown. A symbol library that was cut off, even inside a line, is rejected, makes the reader panic or is read with the first symbols of the whole, unchanged; symbols can get lost without an error, any number of them. A schematic that was cut off is read with the first elements and sheets of the whole except perhaps for the last one, which can be read wrong: a mark at (x, 205) as one at (x, 20).", "quantifier": "all texts and all cuts, all values and all points where a write breaks off", "why_tests_cant": "Every text can be cut at every character; tests cut a few files at a few places.", "anchors": ["src/util.rs:11-44", "src/lib.rs:138-237", "src/footprint/mod.rs:57-61", "src/layout/mod.rs:25-31", "src/symbol_lib.rs:660-841", "src/schematic.rs:1196-1568"]}
{"id": "C86", "title": "Exactly what fits the file format survives saving", "statement": "Let an object be built in any way through the public fields. A schematic is printed without a panic and read back equal (but for its file name) exactly if it fits the file format; a symbol library is read back equal exactly if it fits and has no bold text; a footprint whose strings survive quoting is read back equal exactly if every element fits; a layout whose strings survive quoting is read back equal exactly if it loses nothing: its version, general block, layers and setup are such as the reader gives, and every element fits. Printing a schematic panics exactly if a sheet has so many labels that their counter overflows.", "quantifier": "all schematics, symbol libraries, footprints and layouts, all indentations and quoting policies", "why_tests_cant": "Both directions are about all objects: tests show that some objects survive, never that all others are lost.", "anchors": ["src/schematic.rs:835-891", "src/schematic.rs:1196-1568", "src/symbol_lib.rs:660-841", "src/footprint/ser.rs:14-340", "src/layout/ser.rs:1-330"]}
{"id": "C87", "title": "Symbol libraries survive editing sessions", "statement": "Start with the empty library or one that was read and saved without loss, and make any changes whose arguments fit the file format: new symbols (Symbol::new), set_name, fields, aliases, drawings, numbers and switches, removals. The library is then saved and read back equal exactly if every symbol has at least two fields; otherwise saving panics. A step panics exactly if the symbol to be changed does not exist or lacks the two fields and is to be renamed. Changing one symbol leaves the others as they are. Default rectangles can be saved; a field 0 to 3 with the default (empty) name or a pin with the default name or number cannot.", "quantifier": "all sequences of changes, all libraries, all arguments that fit the format", "why_tests_cant": "Sessions are sequences of any length with any arguments; tests run a few.", "anchors": ["src/symbol_lib.rs:164-234", "src/symbol_lib.rs:273-330", "src/symbol_lib.rs:332-410", "src/symbol_lib.rs:660-841"]}
{"id": "C88", "title": "Line ends of other systems", "statement": "Putting a carriage return in front of every line feed of a file (that has none there yet) does not change what it is read as: schematics and symbol libraries are read the same, error or panic included; the tree of an s-expression file is the same except that line feeds inside quoted atoms become two characters, so footprints, layouts and tables are read the same if there are none; project files keep the line ends they have. read_kicad_file gives the same answer for every expectation. With line feeds inside quotes the data does change.", "quantifier": "all texts, all expectations", "why_tests_cant": "The claim relates the reading of every text to that of its converted form, including all rejected and crashing ones.", "anchors": ["src/lib.rs:138-177", "src/schematic.rs:1501-1568", "src/symbol_lib.rs:819-841", "src/footprint/mod.rs:57-61", "src/layout/mod.rs:25-31", "src/project.rs:20-28"]}
{"id": "C89", "title": "The kind of an error tells what went wrong", "statement": "The six parsers report every rejected text with one fixed kind of error each: footprint, layout and library table with KicadError::SymbolicExpression, schematic, symbol library and project with KicadError::Other; KicadError::Parse is never used. The read functions report KicadError::Io exactly when the file cannot be read, the error of the kind asked for exactly when the text is of no kind tried so far, and KicadError::Other when the file is of a kind tried earlier, so that for a layout the three causes can be told apart, for a footprint two, while for a schematic a broken schematic and a footprint file cannot be told apart. Writes report KicadError::Other only. Following sheets gives KicadError::Io only if a file cannot be read, and KicadError::Other otherwise.", "quantifier": "for all texts, file systems, file names, expectations, write fates, schematics and sheet trees", "why_tests_cant": "that no text at all produces a different kind of error is a statement about every path through six parsers", "anchors": ["src/error.rs", "src/lib.rs:138-237", "src/util.rs:11-44", "src/schematic.rs:153-197", "src/schematic.rs:1571-1594"]}
{"id": "C90", "title": "The schematic reader tells which lines it skips", "statement": "While a schematic is read, the reader prints exactly one notice for each line inside a component or sheet that begins with none of the known words, in the order of the file, containing the line; it prints nothing for other lines and nothing for files that do not begin like a schematic. Deleting exactly the lines named by the notices gives a file that is read as the same schematic without any notice. Also for files that are rejected in the end, every notice names a line of the file, in order. A schematic saved by the library and read again causes a notice only for components without unit line, so if all components have one, reading is silent. Printing never changes what is read.", "quantifier": "for all texts, file names and schematics", "why_tests_cant": "completeness of the notices for every possible text and mixture of known and unknown lines", "anchors": ["src/schematic.rs:1238-1300", "src/schematic.rs:1340-1395", "src/schematic.rs:1500-1569", "src/lib.rs:138-177", "src/bin/identify.rs"]}
{"id": "C91", "title": "The error message of the schematic reader is about the first line at fault", "statement": "When schematic::parse_str (or parse_file) returns Err, the message either is 'end of file reached' and the file really stops in the middle of its head (it is empty, or ends after the first EELAYER line), or it is a true statement about one particular line of the file: the word it quotes is a word of that line and really is not an integer, number, known text type, label form, label side, orientation, justification or boolean; the count of words it complains about really is wrong; the line it says it expected really is different. That line is the first line at fault: the lines before it are the beginning of some file that is read successfully, and every file with the same lines up to and including it is refused with exactly the same message, whatever follows. There is only one such line.", "quantifier": "for all texts, all file names and all messages; for all continuations of the file after the line at fault", "why_tests_cant": "A test checks one bad file and one message; that the reader never blames a good line, never blames a later line than the first bad one, and never depends on what follows is a statement about all texts and all their continuations.", "anchors": ["src/schematic.rs:225-235", "src/schematic.rs:1129-1184", "src/schematic.rs:1187-1562", "src/schematic.rs:726-761", "src/lib.rs:67-80"]}
{"id": "C92", "title": "Error messages of the symbol library reader are about the first line at fault", "statement": "When symbol_lib::parse_str refuses a text, the message is either 'end of file reached', and then the lines of the text are the beginning of some library that is accepted, or it says something that is true of one particular line of the text; before that line an accepted library was still possible, and every text with the same lines up to and including it is refused with the same message. There is only one such line. The message therefore never depends on what follows the fault.", "quantifier": "all texts and all messages", "why_tests_cant": "A test sees single broken files; the claim compares every refused text with all texts that share its beginning, and says that a completion exists for every good beginning.", "anchors": ["src/symbol_lib.rs:585", "src/symbol_lib.rs:660", "src/symbol_lib.rs:742", "src/symbol_lib.rs:776", "src/symbol_lib.rs:802", "src/symbol_lib.rs:819"]}
{"id": "C93", "title": "What the file functions say when they fail", "statement": "An error of read_module, read_schematic, read_layout, read_symbol_lib, read_project or read_fp_lib_table says one of three things: the operating system's text, exactly if the file cannot be read; 'unexpected KIND in NAME', exactly if the file is of that kind and the kind is tried before the one asked for (so 'unexpected unknown' is never said, and read_module never says it); or the text of the parser that was asked for, exactly if it and all parsers tried earlier reject the file. What Display shows is 'Kicad KIND Error: TEXT' and tells errors apart: kind and text can be read off. The error of a failed write tells whether the old content is still there ('create error') or the file now has a part of the new text ('write error'), and names the file.", "quantifier": "all file systems, names, contents, and all texts of the operating system and the expression library", "why_tests_cant": "Which message appears depends on six parsers applied to an arbitrary text; that a message is given only for files of the named kind is a claim about all files.", "anchors": ["src/error.rs:57", "src/lib.rs:138", "src/lib.rs:180", "src/util.rs:22", "src/project.rs:20"]}
{"id": "C94", "title": "Courtyards and board boxes are right up to rounding", "statement": "With 64-bit floating point numbers the courtyard that `fix` adds keeps the prescribed clearance of 0.15, 0.1 or 0.25 mm from the bounding box and from everything the box covers, up to an error of (R+1)*2^-49 when the footprint lies within R of the origin. The bounding box of a layout moved with `adjust` is the old box moved by the same offset, up to (R+1)*2^-46; for boards within a metre that is less than a tenth of a nanometre. If the board has no modules, circles and vias, each side of the new box is exactly the rounded sum of the old side and the offset; with a via this need not be so.", "quantifier": "for all footprints, configurations, layouts and offsets, all bounds R and all finite 64-bit numbers (rounded arithmetic, not exact arithmetic)", "why_tests_cant": "The error of a chain of rounded operations depends on every bit of the coordinates; tests compare a few numbers and cannot give a bound for all boards.", "anchors": ["src/footprint/data.rs:1732", "src/footprint/data.rs:240", "src/layout/data.rs:457", "src/layout/data.rs:592", "src/layout/data.rs:624", "src/lib.rs:297"]}
{"id": "C95", "title": "Bounding boxes cover the shapes that are drawn", "statement": "Taking the numbers of a file as describing shapes in the plane, the bounding box of a layout contains every point of every circle on the board and of every via of a positive size, up to (R+1)*2^-46 when the coordinates are within R, and exactly every point of every line, track, zone outline and dimension line. The box of a footprint contains every point of every pad turned by a multiple of 90 degrees, and of every circle, polygon outline and line of the fabrication layer that runs right and down, moved to the location of the footprint. A circle's box is not larger than the circle, up to the same error. Known exceptions, proved as such: the box of a via is twice as wide and high as the via, the box of an arc misses the far side of the circle by the whole radius, and a fabrication line drawn from right to left of the origin does not widen the box.", "quantifier": "for all layouts and footprints, all elements of the named kinds, all bounds R and all points of the shapes (rational coordinates), with 64-bit rounded arithmetic", "why_tests_cant": "A shape has infinitely many points and the sides of the box are the result of rounded square roots and sums; a test can only probe some points of some shapes.", "anchors": ["src/footprint/data.rs:240", "src/footprint/data.rs:1135", "src/footprint/data.rs:1219", "src/footprint/data.rs:1274", "src/layout/data.rs:107", "src/layout/data.rs:422", "src/layout/data.rs:457", "src/layout/data.rs:592", "src/layout/data.rs:624"]}
{"id": "C96", "title": "Messages about footprints and boards name the first part at fault", "statement": "footprint::parse and layout::parse return an error with a message of their own (unknown layer side, unknown XyType, unknown part, not enough elements, unknown PadType, unknown PadShape, pad: unknown, unknown element in module, unknown layertype, unknown net_class field) exactly for those texts where every part in front of the named one can be read and the named part has just this fault: an unknown word or name, or a missing value, which the message quotes. What stands behind that part makes no difference. The outcomes are otherwise those of the readers. A wrong layer in the layers of a pad is not named: as faults in optional parts are dropped, the message is 'unknown part layers'.", "quantifier": "all texts, all ways of showing trees and numbers", "why_tests_cant": "the faults can be at any depth behind any number of parts that can be read; whether a message is ever about another part than the first one at fault is a statement about all files", "anchors": ["src/footprint/de.rs: impl FromSexp for Layer, Layers, Xy, Pts, Part, Pad, Element, Module", "src/footprint/data.rs: Layer::from_string, PadType::from_string, PadShape::from_string", "src/layout/de.rs: impl FromSexp for Layer, LayerType, NetClass, GrText, GrLine, GrArc, GrCircle, Dimension, Zone, Segment, Via, Layout"]}
{"id": "C97", "title": "Files laid out by hand read the same", "statement": "Schematics and symbol libraries whose lines differ only in the number of blanks between words outside quotes (headings and comments excepted, which are compared letter by letter) are read alike: both readers fail with the same kind of error, or both panic, or the results differ only in the spacing inside the lines that are kept as they are; a library whose drawings are all pins and rectangles is read exactly the same. Footprints, boards and library tables are read the same, with the same messages, however white space is added or removed next to white space, parentheses and quotes.", "quantifier": "all texts, all file names, all ways of changing the spacing, good files and bad ones", "why_tests_cant": "Tests read the few files that exist in their one layout; the claim is about every layout of every file, including damaged ones.", "anchors": ["src/lib.rs parse_split_quote_aware_int", "src/schematic.rs parse", "src/symbol_lib.rs parse", "src/footprint/mod.rs parse", "src/layout/mod.rs parse", "src/fp_lib_table.rs parse"]}
{"id": "C98", "title": "The ways of opening a file agree", "statement": "read_schematic and schematic::parse_file do the same with every file: same schematic, same kind of error, panic in the same cases. read_module does what reading the file and footprint::parse do; read_layout returns a board exactly if reading and layout::parse do, and the same one. read_symbol_lib and symbol_lib::parse_file do the same with every file except those that make the schematic reader panic: there read_symbol_lib panics while parse_file reports an error. symbol_lib::parse_file panics on a file name that is not text, and otherwise only on a library file that is cut short.", "quantifier": "all file systems, file names and contents", "why_tests_cant": "The read_ functions try other parsers first; that these never get in the way is a claim about every text and six parsers.", "anchors": ["src/lib.rs:138", "src/lib.rs:188", "src/lib.rs:216", "src/schematic.rs parse_file", "src/symbol_lib.rs:844"]}
{"id": "C99", "title": "The order of edits about different things does not matter", "statement": "Calls that are about different parts of a footprint (nets, designator, position, angle; flipping goes with the first two) can be made in any order, and so can any session of pairwise independent calls on a footprint, a board (moving, renaming and adding nets, setup entries, editing different modules or different parts of a module), a component (reference, name, fields) or a schematic (different components, sheet count, sheets). Two renamings can change places in all footprints exactly if one does nothing, they are the same, or neither's old name is a name of the other. Two setup entries can change places for every get, and in the file exactly if one of them existed. Where the order matters is shown: flipping turns a move around, new fields are numbered in the order of the calls.", "quantifier": "all footprints, boards, components, schematics, sessions of any length and all permutations of them", "why_tests_cant": "Sessions and their orders are unbounded in number; tests run one order.", "anchors": ["src/footprint/data.rs:189", "src/footprint/data.rs:209", "src/layout/data.rs:648", "src/layout/data.rs:731", "src/layout/data.rs:853", "src/schematic.rs:87", "src/schematic.rs:515", "src/schematic.rs:548"]}
{"id": "C100", "title": "What the address of a library expands to", "statement": "Every address in a footprint library table divides in exactly one way into characters, $name, ${name}, $$, lone $ and unclosed ${. Lib::get_expanded_uri succeeds exactly if every variable named in the address is set; the result is then the address with each part replaced by what it stands for (values of variables are not expanded again), with the home directory in place of a leading ~ of the address that is alone or followed by a slash. Otherwise the error is a shell expand error about the first variable that is not set. The result depends only on the variables named and, if the address begins with ~, the home directory; an address without $ and leading ~ is unchanged.", "quantifier": "all addresses, all environments", "why_tests_cant": "Addresses and environments are unbounded; tests depend on the environment they are run in.", "anchors": ["src/fp_lib_table.rs:37", "src/error.rs:33", "src/error.rs:63"]}
{"id": "C101", "title": "An edit changes only the lines that are about it", "statement": "When a file is changed through the API and saved again, a line-by-line comparison shows only lines about the change. In a schematic, modify_component replaces one block of lines, that of the component; update_reference and update_name change only the line with name and reference and the lines of field 0 or 1; update_field only lines of fields with the name (and the fields above 1 that it hides); a new field adds one line; increment_sheet_count changes only the line that counts sheets; an appended element adds its lines at one place. In footprints and boards, renaming nets or setting a reference changes only lines that have the old name, and these have the new name afterwards; moving and turning changes only lines with a position word such as (at or (start; setting an entry of the setup only lines with this entry. The number of lines stays the same except for what is added.", "quantifier": "all schematics, footprints and boards; all references, names, values and distances without line breaks; all quoting rules and indentation levels", "why_tests_cant": "Tests compare a few saved files with stored copies; that nothing else in the file moves is a claim about every file and every change.", "anchors": ["src/schematic.rs:87", "src/schematic.rs:515", "src/footprint/data.rs:155", "src/footprint/data.rs:209", "src/layout/data.rs:648", "src/layout/data.rs:657", "src/layout/data.rs:731", "src/layout/data.rs:853", "src/formatter.rs:1"]}
{"id": "C102", "title": "Parts in another order", "statement": "If the parts of a font, effects, text, polygon, model, drill, general section, drawing text, dimension, keepout, fill, via or pad connection are written in another order, the reader refuses the list, so that no list of these kinds is read in two orders. For lines, circles, arcs and tracks the only other order that is read has the first two points exchanged: the ends of board drawings and tracks then trade places, and the ends of footprint lines are lost without an error and become the origin. A pad whose parts have different names is read as the same pad in every order that is read. The last parts of a pad, the parts of a net class, the polygons of a zone, the plot parameters of a setup and the sections of a board that are not elements may trade places with parts of other names without changing what is read. Permuting the elements of a footprint permutes the elements read and nothing else.", "quantifier": "For all trees, all permutations of their parts that keep words in order, all sequences of exchanges of neighbours, and all number implementations.", "why_tests_cant": "A list with eleven parts has millions of orders, each optional part multiplies them, and a reader that skips what it does not expect may silently accept one of them; a test can only try a few.", "anchors": ["src/footprint/de.rs: Font, Effects, FpText, FpPoly, FpLine, FpCircle, FpArc, Model, Drill, Pad, Module decoders", "src/layout/de.rs: General, GrText, GrLine, GrArc, GrCircle, Dimension, Keepout, Fill, Segment, Via, ConnectPads, Zone, NetClass, Setup, Layout decoders"]}
{"id": "C103", "title": "Lines in another order", "statement": "In a schematic, lines of a component about different things (name, unit, position, fields, rotation, paths) may be exchanged without changing what is read, and so may lines of a sheet about different things; lines that mean nothing may be anywhere. Title blocks, elements and sheets may be exchanged with one another; with the items in any order at all, the same elements and sheets are read in the new order, and everything else stays the same if there is at most one title block. In a symbol library the symbols may be in any order: the same symbols are read in that order. So may the field lines and the drawing lines of a symbol: only the order of its fields and drawings changes. In a footprint library table the libraries may be in any order, and in a board the sections may be in any order if no section of the heading is there twice: only the order of the libraries or of the elements changes.", "quantifier": "for all schematics, components, sheets, libraries and symbols and for every sequence of exchanges or every permutation of their lines", "why_tests_cant": "There are unboundedly many orders of the lines; a test fixes one file, and the files KiCad writes all have the same order.", "anchors": ["src/schematic.rs:1278-1569", "src/symbol_lib.rs:660-842", "src/layout/de.rs:462-527", "src/fp_lib_table.rs:60-103"]}
{"id": "C104", "title": "Edits to different parts of a file can be merged", "statement": "Let a file have two new versions that changed it in different places, and let a merge take from each version what only that one changed. If the file and both versions are read, the merged file is read too, and what is read is the merge: the elements and sheets of a schematic, the fields and paths of a component, the symbols of a library, the elements of a footprint, the libraries of a table and the elements of a board are the merged lists; of what is there once (title block, name, unit, position and rotation of a component, sections of the heading of a board) the changed value is taken. Conversely, the saved files of schematics, footprints and tables whose elements are merged can be merged line by line, without conflict.", "quantifier": "for all files, all pairs of versions and all merges of them", "why_tests_cant": "The pairs of versions of a file are unbounded, and a test merges two versions of one file.", "anchors": ["src/schematic.rs:1278-1569", "src/symbol_lib.rs:660-842", "src/footprint/de.rs:407-453", "src/layout/de.rs:462-527", "src/fp_lib_table.rs:60-103", "src/schematic.rs:205-223"]}
{"id": "C105", "title": "Numbers stay as they were written", "statement": "A number written plainly (no exponent, no superfluous zeros, up to 15 digits) is read as the nearest 64-bit floating point number, and that number is written with the same characters; two numbers written plainly and differently are read as different numbers. So a footprint, layout, schematic or symbol library whose numbers are whole nanometres, written exactly, is read as the same content with the nearest floating point numbers, and saving it again gives the same text, although hardly any of these numbers has an exact floating point counterpart. With sixteen digits this is no longer so, and the sum of two such numbers need not be written as their sum.", "quantifier": "for all decimal numbers of up to 15 digits, and for all footprints, layouts, schematics and symbol libraries with coordinates below a thousand kilometres in whole nanometres", "why_tests_cant": "There are 10^15 numbers for each position of the point; a test tries some of them, and the rounding errors of binary numbers depend on each single one.", "anchors": ["src/footprint/ser.rs:59-305", "src/layout/ser.rs:14-390", "src/schematic.rs:782-801", "src/symbol_lib.rs:332-410", "src/footprint/de.rs:407-453", "src/schematic.rs:1143-1160"]}
{"id": "C106", "title": "What counts as a number, and which number it is", "statement": "A text in a file is taken for a floating point number exactly if it is digits with at most one point among, in front of or behind them, with at most one sign in front and perhaps a signed power of ten behind, or one of inf, infinity and nan in any case. Every such text means one number; what is kept is the nearest number of 53 bits, the even one if two are equally near, and an infinity of the same sign if that number is too large. Integers are numbers too; zeros in front, zeros behind the last digit after the point and a point at the end change nothing. Any other text is not read as a number.", "quantifier": "for all texts and all 64-bit floating point numbers", "why_tests_cant": "There are infinitely many spellings and ties between neighbouring numbers are rare; a test sees neither all spellings nor the ties.", "anchors": ["src/schematic.rs:1149-1158", "src/symbol_lib.rs:638-648", "src/footprint/de.rs:393-395", "src/layout/de.rs:173-182"]}
{"id": "C107", "title": "A file is read number by number", "statement": "What is read from a footprint, layout, schematic, symbol library or any other file is what the file means, with each number in it replaced by the floating point number that stands for it. Whether a file can be read, which error is reported, what kind of file it is and everything in it that is not a number do not depend on rounding. Two files that mean the same numbers, however they are spelt, are read as the same. If all numbers mean whole nanometres, then reading and saving gives the text of the exact content.", "quantifier": "for all texts, all disks, all expected kinds of file", "why_tests_cant": "A test compares a few files with a few numbers; it cannot exclude that some number is rounded twice, combined with another one, or decides how the rest is read.", "anchors": ["src/footprint/de.rs:1-453", "src/layout/de.rs:1-527", "src/schematic.rs:1143-1410", "src/symbol_lib.rs:620-1117", "src/lib.rs:138-177"]}
{"id": "C108", "title": "A moved board is moved exactly, to the nanometre", "statement": "Positions are 64-bit floating point numbers, so a moved coordinate need not be written as the sum of the old one and the offset. But if the coordinates of a board are whole nanometres of up to a metre and it is moved up to a thousand times by whole nanometres of up to a metre each and then saved, then the numbers in the saved file, each taken to the nearest nanometre as an editor does that computes in nanometres, are exactly those of the board moved by the sum of the offsets, and all else is the same. In particular running adjust_layout up to a thousand times, each time on the output of the run before, moves the board by exactly 100 mm for each run.", "quantifier": "for all boards in whole nanometres up to a metre, all sequences of up to a thousand moves", "why_tests_cant": "Rounding errors depend on every coordinate and add up over moves; a test tries some coordinates and a few moves.", "anchors": ["src/layout/data.rs:616-622", "src/layout/data.rs:868-883", "src/footprint/data.rs:189-196", "src/footprint/data.rs:713-756", "src/bin/adjust_layout.rs:12-25"]}
{"id": "C109", "title": "An edit to a symbol library changes only the lines that are about it", "statement": "Symbol libraries are kept under version control. If a library that can be saved is changed and saved again, the difference of the two files is what was changed: renaming a symbol with set_name changes three lines (the comment before the symbol, the name in the DEF line, the value in the line of the second field); changing the reference, the offset, the number of units or the switches changes the DEF line of that symbol; adding a field or a drawing adds one line after the other fields or drawings; adding an alias lengthens the ALIAS line or adds one; adding a symbol adds its lines before the last line and removing one removes its lines. If two people change different symbols, merging the lines of their files gives the file of the library with both changes.", "quantifier": "for all libraries, symbols, edits and merges", "why_tests_cant": "A test compares the files of some libraries; it cannot show that no other line ever changes.", "anchors": ["src/symbol_lib.rs:261-271", "src/symbol_lib.rs:292-300", "src/symbol_lib.rs:332-367", "src/symbol_lib.rs:388-419"]}
{"id": "C110", "title": "Footprints and boards settle after one save", "statement": "A footprint or board that was read and is saved reads back exactly if no pad has a trapezoid delta or a hole of which no size is written, no time stamp is negative and no zone priority is out of the 64-bit range; otherwise reading the saved file is an error. When it reads back, it is what was saved except that letters of a size positive in no direction have lost it, a hole without a noticeably different positive height is round with its width, and a hole without a positive width is round with its height; every other element is as it was. From then on nothing changes: saving what was read gives the same file, character for character.", "quantifier": "for all files that are read, all quoting policies and indentations", "why_tests_cant": "A test saves and reads some files; that every file settles after one save, and that nothing else is lost, is a statement about all of them.", "anchors": ["src/footprint/ser.rs:71-86", "src/footprint/ser.rs:136-156", "src/footprint/ser.rs:195-230", "src/footprint/de.rs:76-92", "src/footprint/de.rs:182-194", "src/layout/ser.rs:91-122", "src/layout/ser.rs:270-282"]}
{"id": "C111", "title": "Fixing a footprint logs the courtyard it draws, and nothing else", "statement": "Fixing a footprint logs a record exactly if it adds courtyard lines, that is, if there were fewer than four. It is then one record, 'Creating courtyard: x1,y1 -> x2,y2', and its numbers are the corners of the rectangle that is drawn; the rectangle can be recovered from the record without loss. Fixing a fixed footprint logs nothing.", "quantifier": "for all footprints and configurations", "why_tests_cant": "A test looks at the log of some footprints; that the record agrees with the drawing for all of them is not tested.", "anchors": ["src/footprint/data.rs:1648-1763"]}
{"id": "C112", "title": "Reading a board reports every part it did not understand", "statement": "Reading a board logs one debug record for every section that is not known and for every part of a zone that is not known, in the order of the file, and nothing else; the trees in the records are exactly those the board keeps without understanding them. So reading is silent exactly if everything was understood. Reading the saved board logs the same again, and when a later section cannot be read, what was logged about the earlier ones stays logged.", "quantifier": "for all board files", "why_tests_cant": "A test looks at the log of some files; that no unknown part of any file goes unreported is a statement about all of them.", "anchors": ["src/layout/de.rs:254-257", "src/layout/de.rs:350-364", "src/layout/de.rs:462-527"]}
{"id": "C113", "title": "Saving along the way makes no difference", "statement": "A footprint or board was read from a file and can be saved so that it reads again (its strings survive quoting). Then any editing session whose arguments fit the format succeeds with any number of 'save and read again' anywhere in it, and the file it ends with is, character for character, the file that the edits alone end with, although the data in memory may differ (letters without a size, holes without a width). What can be asked of it is answered after saving as before: name, position, rotation, side, time stamps, designator and texts, bounding box, lines, pads; for boards the header, nets, net classes, setup entries, bounding box and footprints. The same holds for schematics that fit the format, but for the name of the file, and for symbol libraries, unless a save panics because a symbol lacks its two fields. What the style check reports about a footprint after saving is what it reported before, in the same order; only findings about the proportions of letters that had no size may be forgotten.", "quantifier": "for all footprint and board files, all schematics and libraries that fit the format, all editing sessions, all placements of saves in them", "why_tests_cant": "A program saves when its user wants it to; a test fixes one order of edits and saves for one file.", "anchors": ["src/footprint/data.rs:47-237", "src/footprint/data.rs:1648-1763", "src/footprint/ser.rs:60-140", "src/layout/data.rs:637-760", "src/footprint/mod.rs:40-65", "src/layout/mod.rs:20-35", "src/schematic.rs:100-235", "src/symbol_lib.rs:30-330"]}
{"id": "C114", "title": "Boxes and arcs of flipped and turned footprints", "statement": "The bounding box of a flipped footprint is as wide as before and reaches from where its shapes begin to where they end once flipped, also with 64-bit floating point numbers. It is the box in the mirror exactly if the highest and lowest starting points of lines are the highest and lowest end points as well, for instance if they make closed outlines; a single line that goes down is lost by the box once flipped, and a pad at a negative quarter turn is measured the other way. The box does not depend on the angle the footprint is placed with, so pads of a turned footprint may be drawn outside of it. A flipped quarter arc ends where the arc in the mirror ends only if it has no radius, because its angle is kept.", "quantifier": "for all footprints, all angles", "why_tests_cant": "Whether a flipped footprint keeps its box depends on the direction in which its lines were drawn; tests use one footprint.", "anchors": ["src/footprint/data.rs:238-282", "src/footprint/data.rs:375-423", "src/footprint/data.rs:586-621", "src/footprint/data.rs:1135-1149", "src/footprint/data.rs:1200-1330"]}
{"id": "C115", "title": "A value can smuggle in other parts of a file", "statement": "Values are written between double quotes as they are. Whatever elements a schematic may contain, there is a value such that setting one field of one component to it (update_field) makes the saved file the file of a schematic with these elements, which is read as such without an error; the text of a label or note does the same with line breaks alone. Likewise for the symbols of a library through any field of a symbol but the second. A value without double quotes and line breaks stays a value.", "quantifier": "for all schematics, components with exactly one field of the name, elements to smuggle in, and all libraries, symbols and fields", "why_tests_cant": "A test would have to know the value; the theorem says that for every set of elements there is one.", "anchors": ["src/schematic.rs:535-545", "src/schematic.rs:584-613", "src/schematic.rs:780-810", "src/schematic.rs:1109-1127", "src/symbol_lib.rs:261-330"]}
{"id": "C116", "title": "Collecting components depends only on the files that sheets name, and only plain names keep it in the project directory", "statement": "all_components and component_by_reference depend only on the files that the sheets of the schematic and of the schematics below it lead to: on two systems that agree on those files the outcome is the same, also when it is an error or does not end. On Unix, if all those sheets have plain file names, every file looked at lies in the directory of the schematic and nothing outside it matters. No sheet name is refused: an absolute name replaces the directory and a name with `..` walks out of it, so the components of files anywhere on the system can be collected.", "quantifier": "for all file systems, schematics, sheet hierarchies and depths", "why_tests_cant": "A test sees one set of files; that no other file matters, for any hierarchy including endless ones, is a statement about all file systems.", "anchors": ["src/schematic.rs:153-171", "src/schematic.rs:174-199", "src/schematic.rs:1571-1594"]}
{"id": "C117", "title": "Files hold UTF-8: what is written, cut or encoded otherwise reads as the same text or not at all", "statement": "With files that hold bytes, read_file and write_file behave like the files of texts used in the other properties: any series of writes, each refused, cut after any number of bytes or completed, leaves what the same writes leave to text files under corresponding fates, and every such fate can occur. Bytes stand for at most one text and different texts are different files; a file cut after any byte reads as the text up to there or, if the cut is inside a character, not at all; in ASCII every cut can be read. A byte from 128 on between ASCII bytes, as in Latin-1 files, makes the whole file unreadable, and a byte order mark makes all six readers reject it. After write_module or write_layout a reader gets the saved value, an error, or (only if the file could not be created) what was there before; a footprint of which a single byte is missing is always rejected.", "quantifier": "for all texts, byte sequences, disks, cut positions and series of writes", "why_tests_cant": "There are as many cut positions as bytes and unboundedly many texts; a test tries a few files, and none shows that no cut is read as something else.", "anchors": ["src/util.rs:11-44", "src/lib.rs:138-213"]}
{"id": "C118", "title": "When sums overflow, what builds without overflow checks do instead, and that fix and flatter never unwrap nothing", "statement": "Module::fix and CheckFixData::flatter never panic at the unwraps they contain. With overflow checks, adding a field panics exactly if a field has the largest 64-bit number, setting a field exactly if in addition no field has that name, counting up the sheets exactly at the largest count, and the box of a schematic exactly if an edge of some sheet is no 64-bit number. Without overflow checks none of them panics and the results are the same whenever the checked ones do not panic; otherwise the new field gets the smallest 64-bit number and is saved without its name, the sheet count becomes the smallest number, and a sheet that reaches beyond the largest number gets a box whose right edge lies left of the sheet.", "quantifier": "for all footprints, configurations, findings, components, fields, names, values and schematics", "why_tests_cant": "Overflow needs numbers at the very edge, and a test runs in one kind of build; that an unwrap is never reached with nothing is a claim about all footprints.", "anchors": ["src/schematic.rs:35-47", "src/schematic.rs:200-202", "src/schematic.rs:495-581", "src/schematic.rs:828-837", "src/footprint/data.rs:1648-1763", "src/checkfix.rs:61-70"]}
{"id": "C119", "title": "How deeply saved files are nested", "statement": "Readers of S-expressions, and the formatter, call themselves for each list inside a list, so the nesting of a file is the stack it takes. The nesting of a text that is read (the largest number of parentheses open at the same time outside quoted words) is the nesting of its tree. A footprint is saved with at most five levels, whatever it contains, and with five exactly if it has a text; a footprint library table with one or three. A board is saved with at most six levels apart from the parts it keeps without knowing them: any number of levels from six on is enough exactly if it is enough for these parts where they stand. Reading and saving a board never takes more than the larger of six levels and those of the file. A footprint file nested as deeply as one likes can read as a footprint (what follows the value of a descr is skipped), and is saved with at most five levels.", "quantifier": "for all texts, trees, footprints, boards, tables, indentations and quoting policies", "why_tests_cant": "The number of elements and the depth of unknown parts are unbounded; a test that saves a few boards does not show that no value is nested more deeply.", "anchors": ["src/footprint/ser.rs:8-305", "src/layout/ser.rs:14-390", "src/fp_lib_table.rs:43-64", "src/formatter.rs:280-360", "src/footprint/mod.rs:19-61", "src/layout/mod.rs:16-31"]}
{"id": "C120", "title": "Measuring warns about exactly what it guesses", "statement": "Measuring a footprint is silent: its texts, whose boxes are guesses, are not looked at. Measuring a board logs one warning for every text on it, those of dimensions included, and nothing else, and the warning is deserved: neither the words nor the size of a text matter to the box. Measuring a sheet logs exactly one warning for every element, in their order and even if measuring then panics: that the box of a component is poor (nothing but its place matters) or that the element is not handled (it does not matter at all). Fixing a footprint logs nothing if there is a courtyard; otherwise it logs, in this order, the box and the place of the footprint as they were, the box seen from that place, and the corners of the new courtyard. Logging changes no result.", "quantifier": "for all footprints, boards, sheets and configurations", "why_tests_cant": "A test looks at the log for some boards; that no guessed box goes unreported, and that what is not reported was measured, is about all of them.", "anchors": ["src/footprint/data.rs:240-260", "src/footprint/data.rs:545-551", "src/footprint/data.rs:1723-1762", "src/layout/data.rs:357-362", "src/layout/data.rs:513-526", "src/layout/data.rs:624-633", "src/schematic.rs:35-47", "src/schematic.rs:361-375", "src/schematic.rs:433-438"]}
{"id": "C121", "title": "The whole log of the programs that print layouts", "statement": "dump_layout and adjust_layout log one line for every part of the board that was not understood, in the order of the file, and then the name of the file; moving the board logs nothing. The name is logged exactly by the runs that end well: a run that panics logs what the reader of layouts has logged until then, and nothing if the file is of another kind, does not exist, or no file is given. Running dump_layout on what either program has printed logs the same lines with the new name.", "quantifier": "for all disks, arguments and quoting rules", "why_tests_cant": "A test looks at the log of some runs; that the readers tried before and after the one for layouts add nothing for any file, and that a second run logs the same, are statements about all files.", "anchors": ["src/bin/dump_layout.rs:11-23", "src/bin/adjust_layout.rs:12-25", "src/lib.rs:138-176", "src/lib.rs:196-201", "src/layout/de.rs:254-257", "src/layout/de.rs:350-364"]}
{"id": "C122", "title": "What fixing a footprint shows in a line-by-line comparison", "statement": "When a footprint is fixed and saved again, the lines of the file before and after correspond one to one except for what is added at the end, before the closing parenthesis. Of the old lines only two of each of the first reference, the first value and the first user text may differ: the title line (what it says, place, layer, hidden or not) and the font line; they become the lines of the same text with the prescribed value, layer, size and thickness, visible. What is added is: the three lines of a user text if there was none, one line with the surface-mount mark if only surface-mount pads are there and the mark is missing, and the four sides of a rectangle on the front courtyard layer if there are fewer than four courtyard lines. So every other line, whatever it is about, is still there in its place, and the number of lines grows by exactly 3, 1 and 4 for these.", "quantifier": "for all footprints whose name, governed texts and their layers have no line breaks, all style configurations, all quoting rules and all levels of indentation", "why_tests_cant": "A test compares two files; that fixing never touches or moves any other line of any footprint needs a proof that goes through the writer and the formatter.", "anchors": ["src/footprint/data.rs:1648-1763", "src/footprint/ser.rs:8-57", "src/footprint/ser.rs:242-251", "src/formatter.rs:115-190"]}
{"id": "C123", "title": "Additions to a board show as added lines and nothing else", "statement": "When something is added to a board and the board is saved again, the new file is the old one with whole lines put in at one place. add_net adds one line, (net number name), before the closing parenthesis; add_netclass adds an empty line and a block there: a title with name and description, a line for each value that is set and for each net, a closing parenthesis; adding a footprint adds an empty line and the lines of the footprint's own file, one level deeper; update_element with a name the setup does not have adds one line to the setup, after its other entries. If the footprints of the board were last, the empty line that ends them is added too.", "quantifier": "for all boards without tracks or footprints inside other parts, all nets, net classes and entries without line breaks in their names, all footprints, quoting rules and levels of indentation", "why_tests_cant": "A test compares two files of one board; the formatter keeps account of footprints and tracks seen so far, so that an addition leaves all that stands before and after it alone has to be proved for every board.", "anchors": ["src/layout/data.rs:757-792", "src/layout/data.rs:853-865", "src/layout/ser.rs:184-215", "src/formatter.rs:169-260"]}
{"id": "C124", "title": "What the style checks do not look at", "statement": "The findings check reports about a footprint depend only on its name, on what the first reference, value and user text show (text, kind of layer, hidden or not, size and thickness of the characters), on whether there are four courtyard lines, on the kinds of pads present and on the surface-mount marking. Moving, rotating and flipping a footprint, renaming its nets, moving the whole board, reordering elements with the texts left in order, and adding or removing elements no rule is about change no finding. Renaming a net before or after fix gives the same footprint. Findings about a symbol depend only on name, reference prefix, fields, pins and rectangles; drawing in another order only reorders them.", "quantifier": "for all footprints, symbols, boards, settings, displacements, angles and net names", "why_tests_cant": "That a result does not depend on something is a claim about all pairs of inputs; tests compare a few.", "anchors": ["src/footprint/data.rs:1384-1646", "src/footprint/data.rs:1648-1763", "src/footprint/data.rs:189-282", "src/symbol_lib.rs:855-1117"]}
{"id": "C125", "title": "What boxes depend on", "statement": "The bounding box of a footprint depends only on its position and on the room its pads and fabrication graphics take up (place and size of pads, points of graphics); the order of the elements, repetitions, texts, other layers, nets, pad shapes and line widths do not matter. Renaming nets and designators and fix, which may draw a courtyard, leave it as it is. The box of a board depends only on the room taken up by its footprints, drawings, dimensions, tracks, vias and zones, in any order; renaming nets in any way, even if the call stops with an error, adding nets and net classes and changing the setup leave it as it is. The box of a schematic, or the failure to compute it, does not depend on the order of elements and sheets.", "quantifier": "for all footprints, boards, schematics, settings, names, update functions and reorderings", "why_tests_cant": "Independence of the order and of everything else in a file is a claim about all pairs of files; boxes are computed by a running union with a special case for the first box.", "anchors": ["src/footprint/data.rs:240-260", "src/footprint/data.rs:325-348", "src/layout/data.rs:624-633", "src/layout/data.rs:657-683", "src/layout/data.rs:885-900", "src/schematic.rs:35-47", "src/lib.rs:297-323"]}
{"id": "C126", "title": "What footprints that compare equal have in common", "statement": "Take two footprints of the same name whose elements compare equal one by one. They stay so when both are moved, turned, flipped or fixed, and renaming nets or references in one of them, or differently in each, does not show. They have the same bounding box. They have the same findings if their references and values look the same, and after fixing they have the same findings in any case.", "quantifier": "for all pairs of footprints that compare equal, configurations, offsets, angles and names", "why_tests_cant": "The comparison skips references, values, nets, sides and layer names on purpose; that nothing else computed from a footprint sees a difference the comparison hides is a claim about all pairs of footprints.", "anchors": ["src/footprint/data.rs:512-545", "src/footprint/data.rs:926-930", "src/footprint/data.rs:1041-1085", "src/footprint/data.rs:240-260", "src/footprint/data.rs:1383-1700"]}
{"id": "C127", "title": "Which edits can be undone, and what can never be taken back", "statement": "Renaming references in a footprint, or nets on a board, there and back restores it exactly if the new name was not in use. A board setting can be put back exactly if it was there, and then by its old value. A component field can be put back exactly if all fields of that name had the old value and all fields numbered two or higher were hidden, because setting a field hides those. The reference or name of a component can be put back exactly if the fields showing it agreed with it, and a renamed symbol exactly if its second field showed its name and the new name did not add the mark of hidden names. No sequence of calls makes a footprint, a board or a schematic smaller or lowers the sheet count, so nets, net classes, settings, parts, fields and counted sheets that were added stay for good.", "quantifier": "for all footprints, boards, setups, components, symbols, schematics, names, values and sequences of edits", "why_tests_cant": "When there and back is the identity, and that no sequence of calls whatsoever takes an addition back, are claims about all contents and all sequences.", "anchors": ["src/footprint/data.rs:155-165", "src/layout/data.rs:657-683", "src/layout/data.rs:731-792", "src/layout/data.rs:853-865", "src/schematic.rs:87-103", "src/schematic.rs:515-581", "src/symbol_lib.rs:292-300"]}
{"id": "C128", "title": "How edits combine", "statement": "Fixing a footprint with one configuration and then with another gives what fixing it with the second one alone gives. Fixing and moving a footprint can change places when coordinates add up without rounding. Renaming the reference of a footprint that has a single one makes no difference once the footprint is fixed. Of two values given to a board setting or to a component field the last one counts and no trace of the first one is left. Renaming a net in two steps gives what renaming it in one step gives exactly if the name in between was not in use (or one of the steps changes nothing), and two nets can change names by way of a third name that is not in use.", "quantifier": "for all footprints, configurations, distances, references, setups, components, boards, names and values", "why_tests_cant": "That a second call makes the first one leave no trace, or that the order of two calls does not matter, are equations between programs over all contents.", "anchors": ["src/footprint/data.rs:1648-1763", "src/footprint/data.rs:155-165", "src/footprint/data.rs:188-200", "src/layout/data.rs:657-683", "src/layout/data.rs:731-792", "src/schematic.rs:515-581"]}
{"id": "C129", "title": "Sheets that are used several times", "statement": "The files determine everything below a schematic. Two sheets that name the same file contribute the same components, so as soon as that file has a component the references collected are not unique. With at most c components and k sheets per file, n levels have at most c (1 + k + k^2 + ...) components (n terms), and for all numbers there are files for which this is reached with one file per level: with one component and two sheets per file, n files below the top give 2^(n+1) - 1 components. Reading every file that sheets lead to, modifying its components and saving it modifies every component collected in the same way, and nothing else, also when collecting fails or does not end.", "quantifier": "for all file systems, schematics, numbers of components, sheets and levels, and modifications", "why_tests_cant": "The bound and that it is reached concern hierarchies of any depth; no test can hold a hierarchy with exponentially many components.", "anchors": ["src/schematic.rs:106-120", "src/schematic.rs:153-171", "src/schematic.rs:1571-1594"]}
{"id": "C130", "title": "A component is a table of fields", "statement": "After any sequence of add_or_update_field calls every name looks up as the value it was last given, or as the value it had. Exactly the names that were not there are added, each once, behind the others. get_field finds the first field of a name and get_field_value shows its value. fields_hash agrees with looking fields up one by one as long as no two fields share a name, and no sequence of calls makes two fields share a name. When two fields do share a name, setting it leaves fields_hash with another value exactly if the first of them had the value already and the last one had not.", "quantifier": "for all components, sequences of names and values, and templates, as long as there are field numbers left", "why_tests_cant": "What holds after any sequence of calls is an invariant over all histories; the disagreement of the two lookups needs two fields of one name, of which the first happens to have the value being set.", "anchors": ["src/schematic.rs:475-492", "src/schematic.rs:495-512", "src/schematic.rs:535-581"]}
{"id": "C131", "title": "Lists of parts in order of reference", "statement": "Sorting components by reference_ord gives every component exactly once, ordered by letter and then by number so that R2 stands before R10, with components of equal keys in the order in which they were collected. The list is the same for every order of collecting exactly if no two different components have the same key; R1 and RN1 have. Making the list panics exactly if a component has an empty reference, and there is a file that reads well and has one.", "quantifier": "for all lists of components and all orders of collecting them", "why_tests_cant": "Independence of the collecting order speaks about every permutation of every list; a test sorts a handful of references and never meets a tie or an empty reference that a file can hold.", "anchors": ["src/lib.rs:347-367", "src/schematic.rs:475-492"]}
{"id": "C132", "title": "Carrying values from a schematic over to a board", "statement": "A program that goes through a list of references and values and sets the value text of each module with modify_module and get_value_text_mut fails exactly if a reference is not on the board. Otherwise every reference leads afterwards to the module it led to before, showing the last value the list has for it and all its other texts as they were; all other elements and sections stay, in their places. The order of the list does not matter if no reference is on it twice, and going through it again changes nothing. A board that can be saved still reads back as what it is. A second module with the same reference and a module without a value text are silently left alone.", "quantifier": "for all lists of references and values and all boards (in which no module has two designators, where looking modules up and the order of the list are concerned)", "why_tests_cant": "Order independence speaks about all permutations of all lists, and that nothing else changes about every element of every board; a test compares one board.", "anchors": ["src/layout/data.rs:731-754", "src/layout/data.rs:697-717", "src/footprint/data.rs:80-89", "src/footprint/data.rs:112-114"]}
{"id": "C133", "title": "The netlist of a board", "statement": "The netlist, read off with get_modules, get_reference and pads, lists which pad of which part is on which net. update_net_names and change_net_name change the names in it one by one and nothing else. The same pads are connected afterwards exactly if no two names in use become one: renaming a net joins two nets exactly if both names are in use, and two nets can be exchanged by way of a name that is not. Moving the board, adding nets, classes, setup entries and elements other than modules, and moving, turning and flipping footprints leave the netlist as it is. Fixing a footprint keeps its wires and replaces its designator, so that a part that is fixed on a board can no longer be found.", "quantifier": "for all boards, update functions that accept the names, names and sequences of calls", "why_tests_cant": "That connections are kept is an equivalence over all pairs of pads of all boards and all renamings; a test has one board, in which names hardly collide.", "anchors": ["src/layout/data.rs:648-683", "src/layout/data.rs:720-728", "src/footprint/data.rs:63-65", "src/footprint/data.rs:218-226", "src/footprint/data.rs:1649-1705"]}
{"id": "C134", "title": "Renumbering a schematic", "statement": "A program goes through a list of old and new references with modify_component and update_reference. Each step replaces the first occurrence of the old reference among the components and no other, so that of a part with several units only one is renamed. If the references are all different and the new ones are neither in use nor on the list as old ones, going through the list is the same as renaming all components at once with modify_components, and the references are all different afterwards. Any other renaming that keeps references different is done in two rounds by way of references that are not in use; in one round the second step of an exchange takes the first one back.", "quantifier": "for all schematics and all lists of references under the stated conditions; the first sentence for all", "why_tests_cant": "Whether one call at a time does the same as all at once depends on how the names on the list and in the schematic overlap, for lists of any length.", "anchors": ["src/schematic.rs:87-103", "src/schematic.rs:106-120", "src/schematic.rs:515-522"]}
{"id": "C135", "title": "Automatic net names follow the parts they are named after", "statement": "A closure given to update_net_names that puts a new designator in every automatic net name with is_unnamed_net and set_unnamed_net never fails, changes automatic names Net-(part-pin) to the new part and the same pin, and leaves all other names and everything else on the board as it was. One pass can exchange designators, and two passes are one with both changes. The same pads are connected afterwards if the automatic names end with the parenthesis, no two designators become one and the new ones contain none of -, ( and ). A designator with one of these makes a name that is never recognised again, and nets whose names differ only in text after the parenthesis are joined. Together with set_reference on the only part with the old designator, the netlist is what it was with the new designator in place of the old one, and every automatic net still has the pad it is named after; with set_reference alone this is lost.", "quantifier": "for all boards, all changes of designators and all names, under the stated conditions", "why_tests_cant": "Whether two nets are joined depends on all names on a board together; the existing tests rename one name.", "anchors": ["src/layout/data.rs:657-683", "src/layout/data.rs:731-754", "src/layout/data.rs:904-925", "src/footprint/data.rs:155-165"]}
{"id": "C136", "title": "Placing a footprint from a library on a board", "statement": "A program gives a footprint that was read a designator with set_reference and nets with set_net on its pads, puts a position in front and appends it to a board. Then get_module finds it under its designator if that was not on the board, finds every other part as before, and nothing else. The netlist has the given wires behind all others; the part is at the given position with the given rotation, on the side the library says. Without the position, and also after moves, its elements compare equal one by one to those in the library, whatever designator and nets. If the board and the footprint can be saved and read back and designator and nets can be written, so can the board with the footprint. Exchanging a part for a footprint with the same pad names and no nets, with the designator and for each pad the net of the pad of the same name, keeps the wires if pads of one name are on one net; otherwise it can change them.", "quantifier": "for all boards, footprints, positions, designators and nets", "why_tests_cant": "The claims relate three files - library, board and the result - for any elements in any order.", "anchors": ["src/footprint/data.rs:155-165", "src/footprint/data.rs:168-206", "src/footprint/data.rs:512-543", "src/footprint/data.rs:1041-1084", "src/footprint/data.rs:1125-1127", "src/layout/data.rs:697-728"]}
{"id": "C137", "title": "Putting two boards together", "statement": "A program moves a board with adjust and appends its elements to those of another one. The netlist of the panel is that of the first board followed by that of the second: pads of one board are connected as before, pads of different boards exactly if the names of their nets are the same. After a prefix that no net of the first board has was put in front of the names of the second with update_net_names, the boards are not connected and connections within each are as before. Nets, net classes and parts are listed one after the other, a part is found on the first board first, the bounding box is the union of the two boxes (if no via has a negative size), and if both boards can be saved and read back, so can the panel. Net numbers keep what they stand for on either board, so that a number both boards use can stand for two nets.", "quantifier": "for all pairs of boards, displacements and prefixes, under the stated conditions", "why_tests_cant": "Whether the parts of two boards interfere depends on all their elements and names; tests look at single boards.", "anchors": ["src/layout/data.rs:616-622", "src/layout/data.rs:637-645", "src/layout/data.rs:657-728", "src/layout/data.rs:624-633", "src/layout/data.rs:885-901", "src/lib.rs:297-322"]}
{"id": "C138", "title": "Renaming a symbol in a library and in a schematic", "statement": "A component is drawn with the symbol of its name; in the library the name can have a ~ in front, which hides it. A program calls set_name on every symbol of a library that goes by the old name and update_name on every component of that name. The renaming panics exactly if a symbol of the old name has an empty name or less than two fields, and never gives an error. If no symbol had the new name, then find with the new name gives the symbol that had the old one, renamed, hidden if it was hidden; every other name finds the symbol it found before, and the old name finds nothing. The components without a symbol are the same as before if both files are renamed and no component had the new name; if only the library is renamed, every component of the old name is without. A library that could be saved and read back still can, if the new name is a word. If the new name was taken, the components can get another symbol than before.", "quantifier": "for all libraries, schematics and names without ~ in front", "why_tests_cant": "The claims relate two files for any order and number of symbols, several of them with the same name, hidden or not.", "anchors": ["src/symbol_lib.rs:248-258", "src/symbol_lib.rs:292-300", "src/schematic.rs:106-120", "src/schematic.rs:525-532"]}
{"id": "C139", "title": "Pasting one schematic into another", "statement": "A program appends the elements and the sheets of one schematic to those of another. Then the components are those of the first followed by those of the second, and the references are unique exactly if they were in both and none is in both. modify_component changes the first schematic if it has the reference on its page and the second otherwise. If the sheets of the second are in the same files seen from the first, all_components succeeds exactly if it does for both and gives the components of both, and component_by_reference finds what it found in the first unless the second has the reference on its first page; what the first does not have, all of its sheets being readable, is searched in the second as before. If the first sheet of the first schematic cannot be read, nothing on the sheets of the second is found any more. The result has a bounding box exactly if both have, and can be saved and read back if both can. If the second schematic is in another directory, its sheets can be lost.", "quantifier": "for all schematics, files, references and depths of sheets", "why_tests_cant": "Whether components are found depends on the whole tree of files and on which of them can be read; the claims are about all trees.", "anchors": ["src/schematic.rs:20-33", "src/schematic.rs:35-47", "src/schematic.rs:87-103", "src/schematic.rs:137-171", "src/schematic.rs:174-197", "src/schematic.rs:1577-1594"]}
{"id": "C140", "title": "From the name of a footprint to its file", "statement": "A program looks a library up by name in several footprint library tables, that of the project first, expands the address with get_expanded_uri and appends the name of the footprint. The first table that has the library decides whatever the others say, and there is no file exactly if no table has it. Another address for a library moves its footprints there and no others; taking it out of the first table uncovers that of the others and moves no other. The order within a table without double names does not matter, and saving all tables and reading them back moves nothing. If the address is a variable in braces and a rest, the footprints are below the value of the variable; setting a variable moves only libraries whose address names it. Different footprints of one library have different files; footprints of different libraries can have the same.", "quantifier": "for all lists of tables, environments, names and addresses", "why_tests_cant": "The claims compare two states of several files and of the environment for every name that can be looked up.", "anchors": ["src/fp_lib_table.rs:14-33", "src/fp_lib_table.rs:35-41"]}
{"id": "C141", "title": "Bills of materials", "statement": "A program collects the components of a schematic and its sheets and counts those that agree in chosen fields. Every component is counted once, so that the numbers add up to the number of components, and there is a line exactly for each combination that occurs. The bill of two schematics pasted into one is the sum of both. Setting a field with update_field lists a component that has the field under the new value and leaves one without it where it was. A change to the component with a reference takes one from the line it was in and adds one to the line it is in then, and no other line changes. Setting or adding fields that are not among the chosen ones changes no line, on one component or on all; neither does renumbering, unless the reference is among the chosen fields.", "quantifier": "for all schematics, files, chosen fields and edits", "why_tests_cant": "Sums over all combinations of values and over all hierarchies of sheets.", "anchors": ["src/schematic.rs:87-120", "src/schematic.rs:153-171", "src/schematic.rs:475-482", "src/schematic.rs:515-522", "src/schematic.rs:535-581"]}
{"id": "C142", "title": "Symbols and footprints that belong together", "statement": "A program compares the numbers of the pins of a symbol with the names of the pads of its footprint. Whatever sequence of flip, rotate, adjust, set_reference, rename_net, append and fix is made on the footprint, its pads keep their names and order, and exactly the appended pads come in addition; the same for the pins of a symbol under set_name and changes of its public fields. So a pin is without a pad afterwards exactly if it was there or was added and no pad of its name was there or was added, and without added pins and pads the comparison gives the same in both directions. Footprints that compare equal give the same. If no pin is without a pad and all pads have nets, every pin is on a net of the board; with two pads of one name it can be on two.", "quantifier": "for all symbols, footprints and sequences of edits on both", "why_tests_cant": "The claims are about all sequences of edits on two files of different kinds.", "anchors": ["src/symbol_lib.rs:292-311", "src/footprint/data.rs:155-226", "src/footprint/data.rs:268-282", "src/footprint/data.rs:1041-1084"]}
{"id": "C143", "title": "Taking parts off a board", "statement": "After the footprints with a designator are removed from the elements of a board (retain with is_reference_with_name), Layout::get_module finds none with it. It finds the same footprint as before for every other designator, except where a removed footprint carries that one too. The netlist loses exactly the connections of the removed footprints, while nets and net classes stay. Placing a footprint and taking it off again gives back the board if the designator was new. Parts come off in any order, and before or after boards are moved or put together. Whatever elements are removed, the bounding box gets no larger, and a board that could be written and read back still can.", "quantifier": "all boards, all designators, all footprints, every rule for which elements to keep, all points", "why_tests_cant": "A test removes one part from one board. The claim is about every board and every choice of removed elements, including repeated designators and footprints with two reference texts, and about all points of the box.", "anchors": ["src/layout/data.rs:13-28", "src/layout/data.rs:616-730", "src/footprint/data.rs:51-60", "src/layout/ser.rs", "src/layout/de.rs"]}
{"id": "C144", "title": "Taking components out of a schematic", "statement": "After the components with a designator are removed from the elements of a schematic (retain), the other components of the page remain in their order. Every other designator is found by component_by_reference as before, and the removed one is found only on sheets. all_components succeeds exactly as before and gives all components but those removed, so that each line of a bill of materials loses just those. Components come out in any order, and before or after schematics are pasted together. Whatever elements are removed, a schematic that fits the format is still written and read back, and there is a bounding box exactly if there was one. The box gets no larger if y is at most x for all components and no sheet has a negative size. Otherwise it can grow, because the code takes y for the left edge of a component.", "quantifier": "all schematics, all file systems, all designators, every rule for which elements to keep, all depths of sheets, all columns of the bill, all points", "why_tests_cant": "A test removes one component from one schematic. The claim is about every schematic with every tree of sheets behind it, repeated designators, sheets that cannot be read, and all choices of removed elements. That the box may grow shows only for particular positions.", "anchors": ["src/schematic.rs:17-32", "src/schematic.rs:35-47", "src/schematic.rs:122-198", "src/schematic.rs:433-438"]}
{"id": "C145", "title": "The library that a schematic needs", "statement": "If only the symbols that go by the name of a component of the schematic (with or without ~ in front) are kept in a library, then SymbolLib::find gives every component the symbol it had, and the same components are without one. Every symbol left goes by such a name. Each symbol found for a component is in every library that serves the schematic as well. Doing it again changes nothing, after components were removed the smaller library is enough, and two schematics pasted together need what both need. In libraries joined into one, the first has precedence, and what is needed can be chosen before or after joining. What is kept of libraries that fit the format and have no bold fields is saved and read back. Names in ALIAS lines do not count, so that a symbol that is referred to by such a name is dropped.", "quantifier": "all libraries, all schematics, all lists of names", "why_tests_cant": "A test reduces one library for one schematic. The claim is that no component of any schematic loses or changes its symbol, for every library, with repeated names, hidden names and missing symbols.", "anchors": ["src/symbol_lib.rs:21-24", "src/symbol_lib.rs:248-258", "src/schematic.rs:137-150", "src/schematic.rs:394-411"]}
{"id": "C146", "title": "Keeping a schematic and a board in step", "statement": "A page of a schematic and a board are in step if the designators of the components are those that Layout::get_module finds. That is so exactly if no designator is unplaced and every footprint is on the page. They stay in step if a designator is removed from both (when no footprint has two designators), if a component is added together with a footprint of its designator, if a designator is renamed everywhere in both, whatever the new one, with modify_components and set_reference, if schematics are pasted together along with their boards, and if the board is moved. Every sequence of such changes keeps them in step. Placing a footprint takes its designator off the list of what is to be placed and no other. If modify_component and modify_module are used for renaming instead, a component with two units falls out of step, since only one unit is renamed.", "quantifier": "all schematics, all boards, all designators, all components and footprints, all displacements", "why_tests_cant": "A test changes one pair of files. The claim is an invariant of all pairs and all sequences of such changes, with repeated designators, several units and footprints without or with several reference texts.", "anchors": ["src/schematic.rs:86-150", "src/schematic.rs:515-522", "src/layout/data.rs:616-622", "src/layout/data.rs:697-755", "src/footprint/data.rs:51-60", "src/footprint/data.rs:155-165"]}
{"id": "C147", "title": "Making one page of a hierarchy", "statement": "A program reads the sheets of a schematic with parse_file_for_sheet, and their sheets, and puts all elements on one page without sheets. It fails exactly as all_components does, and otherwise the components of the new page are those that all_components gives, in the same order. On the new page component_by_reference finds the component it finds in the hierarchy, or nothing in both, in whatever directory the page is put. Bills of materials are the same, and the page always has a bounding box. Doing it again changes nothing, and a designator taken out of the new page is gone. If the schematic and all files fit the format, the page is saved and read back. Designators that differ on every page can be equal on the new one, because a file can be used twice.", "quantifier": "all schematics, all file systems, all depths of the hierarchy, all designators, all columns of the bill", "why_tests_cant": "A test has a few files of fixed depth. The claim is about trees of sheets of every shape and depth, shared files, missing files and files that cannot be read, and is proved by induction on the depth.", "anchors": ["src/schematic.rs:153-171", "src/schematic.rs:174-197", "src/schematic.rs:1571-1594", "src/schematic.rs:35-47"]}
{"id": "C148", "title": "Taking sheets out of a schematic", "statement": "If sheets are removed from a schematic (retain), the components of the page stay. If all_components succeeded, it still does, and gives some of the former components in their order, so that no line of a bill of materials gets longer. It succeeds exactly if the components of each sheet that is kept can be collected, so that removing the sheets that cannot be read makes it succeed. What is on the page is found by component_by_reference as before; if all components could be collected, nothing is found that could not be found before. There is a bounding box exactly if the edges of the sheets that are kept are numbers of 64 bits. A schematic that fits the format is still saved and read back. Removing a sheet that cannot be read can make a component appear on another sheet that was not found before.", "quantifier": "all schematics, all file systems, all depths, every rule for which sheets to keep, all designators", "why_tests_cant": "A test removes one sheet. The claim is about all trees of sheets and all choices of sheets, and about files that are missing or cannot be read at any depth.", "anchors": ["src/schematic.rs:29-30", "src/schematic.rs:35-47", "src/schematic.rs:153-197", "src/schematic.rs:1577-1594"]}
