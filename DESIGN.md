# Formal model of osu-file-parser: design

Source: `/repo` (crate `osu-file-parser` 1.1.0, nom 7.1.3, rust_decimal 1.35.0).
Prover: Lean 4.33.0, project in `/verif/lean`. A few Mathlib modules (ordered fields,
`linarith`, `ring`, `norm_num`) are imported, for the rational arithmetic of C62 only.

## 1. Shape of the model

* **Text** is `Str = List Char` (Unicode scalar values, as Rust `str`). Byte lengths
  (`Char.utf8Size`) are used only where the code confuses byte and char indices.
* **Results.** `Res ε α` has `ok`, `err` and `panic`. Every Rust panic the code can reach
  (`unwrap` on an error, `unreachable!`, arithmetic overflow with overflow checks on, slicing off a
  char boundary, `Vec` index) is the explicit value `panic`; printers return `none` for a panic.
* **nom parsers** are functions `Str → PRes γ α` with results `ok rest v`, `error e`, `failure e`
  (after `cut`) and `panic`. Errors are nom's `VerboseError` list (innermost first) so that
  `verbose_error_to_error!` (first context wins, none = `unreachable!`) is modelled as it is.
  `tag, take_while, take_till, take_until, char, digit1, space0, multispace0, eof, rest, alt, many0,
  separated_list0, cut, context, verify, peek, map, map_res, preceded, terminated, delimited, tuple`
  follow nom 7.1.3.
* **Integers**: `i32`, `u8`, `u32`, `usize` are Lean's fixed width types; std's integer `FromStr` is
  modelled with its error kinds.
* **rust_decimal** is a parameter: a type `D` with `parse`, `show`, `+24`, `-24` and the laws listed in
  section 3. The concrete instance `Dec96` (`Proof/Dec96.lean`) shows that the laws can be met and is used
  in examples.
* **Key/value sections** (`general_section!`) are one generic model over a schema (list of fields with
  name, parser, printer, spacing) instantiated four times.
* **Files**: the section splitter (`square_section`), the loop over sections with its line counting, the
  header, `append_osb`, and the printer are `Model/SectionSplit.lean`, `Model/OsuFile.lean`,
  `Model/Osb.lean`.
* Structs become structures, enums become inductives, one model file per source file.
  Every definition cites the source lines.

Files: `Verif/Basic/*` (text, numbers, nom, decimal), `Verif/Model/*` (the code),
`Verif/Spec/*` (independent specifications), `Verif/Proof/*` (lemmas), `Verif/Props/*` (one theorem
group per property, with `example`s beside them).

Specifications do not use the parsers: a line is described by its comma separated pieces
(`splitOnC`, characterised by `splitOnC_iff`), a section by its non-blank lines, a file by its layout
(`Layout`: header, lines before the sections, sections with name and body, rest), a forest of commands by
its depth first listing, a substitution by the parts between the occurrences.

When a property turned out to be false of the code, the negation is proved with a concrete witness
(`Cnn_false*`), and the property is restated as the exact condition under which it holds, and proved.

## 2. Properties and how each is proved

| id | what is modelled | how |
|---|---|---|
| C01 | std int parsing/printing | induction over digits |
| C02 | `Decimal` wrapper over abstract rust_decimal | case split on `parse` |
| C03 | `FilePath` printer | case analysis on the quoting condition |
| C04 | `get_colon_field_value_lines`, section macro, all four schemas | induction over printed fields; per-field round trip; which sections survive exactly (`C04_*_iff`): what is read was written and can be written (`C04_*_read`) |
| C05 | same | fold over fields with distinct keys commutes |
| C06 | same | exact outcome of reading for every text (`Proof/KVGrammar.lean`) |
| C07 | version gates | case split on version, all naturals |
| C08 | Bookmarks/Tags | induction over lists; inversion of `separated_list0` |
| C09 | 0/1 bools | from C01 |
| C10 | Metadata | witness of a panic; exact characterisation of the texts that panic |
| C11,C12 | colours | parser execution; negation witness for negative combos; `C12_colours_iff` |
| C13,C14 | line folds | induction over lines |
| C15–C18 | timing points | grammar and printer per version; bit lemmas; which points and lists survive exactly (`C15_exact`, `C16_exact`): piece by piece, generic lemma `section_exact` for lists |
| C19–C24 | hit objects | grammar and printer; finite tables; bit lemmas; invariants over op lists; which objects and lists survive exactly (`C20_exact`, `C21_exact`): each part of a line by itself, `section_exact` for lists |
| C25 | enum codes | case split |
| C26 | offsets | laws of the decimal parameter / checked i32 addition |
| C27 | commands | grammar over comma separated pieces, both directions |
| C28–C30, C54 | nested commands | refinement of the explicit stack loop to a recursive printer; induction on forests |
| C31–C33 | continuing fields, colours, triggers | invariants; exact conditions; negation witnesses |
| C34,C35 | event lines and section | grammar, both directions; induction over events; `C35_iff` from what is read being writable and the quoting of paths; the writability predicates take a flag for carriage returns inside a line, `CleanEnds` says that no line of a text ends in one |
| C36 | panics in events | exact characterisation of the lines that panic; witnesses for each kind |
| C37 | variable definitions | exact grammar |
| C38 | variables in commands | `str::replace` characterised by parts; texts as sequences of characters and references (`Proof/Subst.lean`), the printing loop invariant is that the sequence stands for the body; `C38_iff` (Props/OsbExact): printed lines and lines read are aligned by their indentation |
| C39, C55 | storyboard files | exact outcome of the loop over sections; layout of printed files; re-saving; which storyboards survive exactly (`C39_iff`, Props/OsbExact): layouts of the printed texts, empty sections treated apart |
| C40 | append_osb, osb_to_string (Props/File, Props/AppendOsb) | case split; round trip from C39; `C40_iff` from `C39_iff` |
| C41 | whole file | layout of printed files + section round trips; exactly which files survive (`C41_iff`): a file that reads as what it was written for consists of texts that can stand in a file (induction over its sections), then the exact theorems of the sections |
| C42 | stability | accepted ⇒ writable, per section; layout of printed files |
| C43 | order of sections | permutation invariance of the value that sections stand for |
| C44, C53 | section handling | exact outcome of the loop over sections |
| C45 | header | inversion |
| C46 | line numbers | exact equations, where they are right, negation witnesses |
| C47 | panics at file level | exact characterisation; negation witnesses |
| C48,C49 | trimmer | fold invariants, uniqueness of sorted permutations; exact characterisation; negation witnesses |
| C50 | panic freedom | compositional predicate on parsers |
| C51 | error type | direct |
| C52 | spacing of Difficulty | exact text; negation witness |
| C56–C59 | errors of lines | specification as a list of columns, the first fault counts (`Spec/Faults*.lean`); every parser is run to an outcome (`Proof/Out.lean`) that agrees with it |
| C60 | colour lines | grammar and fault specification, both from a closed form of the outcome |
| C61 | frame file names | `Path::file_name`/`extension` as list functions; declarative path grammar; uniqueness and injectivity |
| C62 | BPM, velocity and constructors of timing points | division and multiplication as rounded rational operations (class `DecArith`); error propagation |
| C63 | setters of timing points | the line as a list of columns; induction over the sequence of changes |
| C64, C65 | defaults and constructors | case split on fields and versions; section, object and file round trips |
| C66 | texts of errors | the texts as functions of the errors; named columns (`Spec/Messages.lean`) with the same first-fault rule; left inverses for distinctness |
| C67 | version eras | the cuts of each section (`Spec/Eras.lean`); the gates agree between cuts, lifted through schema, line and section loops; one text or value per cut shows it is needed |
| C68 | line endings | texts that are the same but for LF or CRLF (`Spec/Endings.lean`) have the same lines and the same entries up to gaps of as many lines; lifted through header, section split and each section |
| C69 | texts one after the other | the loops of the sections run over the lines of both (`Spec/Concat.lean`); a step with earlier events in front; entries of both texts |
| C70 | constructors | `Model/Constructors.lean`; round trips from C34 and the grammar of hit object lines; the head of a written line is replaced by pieces that are read alike |
| C71 | edits of one section, line or field; sections left out or put in; lines appended to a file | `Spec/Edits.lean`, `Proof/Edits.lean`: text of a file as listed blocks (C43), grammar of files (C53), texts one after the other (C69) |
| C72 | texts of different values | from the round trips C04, C12, C16, C21, C35, C39, C41, and the stability of texts |
| C73 | white space in sections and lines | from the characterizations C06, C17, C19 and the characters number parsers take |
| C74 | texts of errors in key/value sections | specification `KVSays`, from C06 and the reading of digits by induction |
| C75 | load, save, compare | the cleaned lines of a layout and of a written file, compared with C49; distinct keys make the order irrelevant; a colour line determines its colour up to blanks |
| C76 | causes of errors | `source` of each error type; only one variant gives a cause, and C06, C46, C74 say when it is returned |
| C77 | equality of paths | components as root, leading dot and names; each spelling is reduced to a shortest one by leaving out parts, so equal components mean a chain of such steps |
| C78 | whole texts of errors of files | specifications `FileSays` and `OsbSays`, from C45, C46, C55, C66, C74; events with variables (`C58_variables`): one step of the loop with references replaced |
| C79 | tables of fields, `FReads`, `FWritten` | each field parser and printer against its kind, then `C06_any_text_accepted`; printed integers by induction (`C01_printed`) |
| C80 | tables of names and numbers | each parser and printer against its table, numerals through `C01_*_accepts`, printed numbers through `plainNat_iff` |
| C81 | pieces of each written line, `Spelt` | `render` computes the text of pieces; each printer equals `render` of its pieces; nested commands by `C28_depth_first` |
| C82 | loaded values, `SavableAs w` | what was read in one version is shown to survive in the other (`tpSurvives_at`, `hoSurvives_at`, `evFits_at`, and `items_rest` for lines that look like headers), then `C41_iff` both ways; without carriage returns `survives_back` |
| C83 | `FileSame`, per section `ViewSame`, `PointSame`, `ObjectSame`, `EventSame` | equal cleaned lines give pieces that agree up to blanks (`TextSame.pieces`); each line grammar is then shown to read the same value up to blanks (`tp_same`, `object_same`, `row_same`, `views_same`), lifted to lists by `perm_read` and `each_read` |
| C84 | `OsuFile.same`, `Osb.same` (derived `==`), `respell`, `Alike` | each derived comparison is equality of the values with numbers and paths respelled (`*.same_iff`), up to the file; the written texts of equal values are decomposed piece by piece (`OsuFile.alike`; storyboards without variables `C84_text_storyboard`) |
| C85 | `savedAs w`, `KeptAs w` | `savedAs w f` has the text of `f` section by section (`kept_prints`) and survives (`kept_survives`: `tpDefaults_survives`, `hoBack_survives`, `quoted_fits`), `General` through `C04_general`; back through `C41_iff` |
| C86 | printers with explicit panics | which pieces panic, then `mapM`/section by section (`mapM_none`, `pushSection_none`); loaded files through `C53_exact` and the grammars of the sections |
| C87 | `Model/Release.lean`: the functions with integer arithmetic again, wrapping | relation 'panics or the same' carried through parsers, lines, sections, files (`parse_agrees`); `parseEvent_moved`; exact outcome of the loop over sections as for C53/C46 (`fileLoopR_ok`, `fileLoopR_stops`) |
| C88 | `pushR`, `setR` (wrapping `len() - 2`, `len() - 1`) | last entry split off; `C32_push` where the builds agree |
| C89 | errors of the single value parsers | first-label outcomes of the parser combinators; exact number errors of C74 |
| C90 | texts and causes of errors of values and setters (`Model/MessagesValues.lean`) | specifications of the texts by number, name and place (`Spec/MessagesValues.lean`), from C89, C31 and C32; induction over the entries |
| C91 | `Path` of std on Windows with drives and both separators, equality, frames, `Sprite::new` (`Model/Windows.lean`) | rewriting of spellings (`Spec/Windows.lean`), reduced to the Unix paths of C61 and C77 after exchanging backslashes; confluence to the shortest spelling without leaving the modelled paths |
| C92 | derived `Ord` of the three types (`Model/Order.lean`) | comparison of the values of the texts (`numVal`), with the bounds of C24 |
| C93 | every function that reads a `usize`, with its largest value as a parameter (`Model/Width.lean`), and those that call them up to the file (`Model/WidthFile.lean`) | narrowing a number parser refuses exactly the larger values (`Proof/Width.lean`), carried through the nom parsers; `C93_64_*` tie the model to the 64 bit one; `Spec/Width.lean`, `Spec/WidthFile.lean` say which values and files fit; the file by the loop over its sections (`Props/WidthFile.lean`) |
| C94 | the calls made on a `Hasher` by the derived `Hash` of every type (`Model/Hash.lean`), with the loop of std for paths; any hasher (`Spec/Hash.lean`) | the calls of a value can be read back whatever follows (`Reads`, `Proof/Hash.lean`), type by type, up to the spelling of numbers and the slash at the start of paths; joined with the comparison of C84 |
| C95 | nothing new; rows, filled fields, entries of events and files and the depth of commands are counted in `Spec/Counts.lean` | rows add up over a text cut at line breaks (`Proof/Counts.lean`); joined with the exact grammars of C35, C53, C55 and C79; things with different names, each backed by a section or entry of that name, are no more than these hold |
| C96 | nothing new; parts of values in `Spec/Cut.lean` | the layout of the text up to a line feed is a first part of the layout of the whole text, where the content of the last section can be cut (`Proof/Cut.lean`, induction over the sections); sections by induction over their exact grammar (C06, C35, C53, C55), depth first for nested commands |
| C97 | nothing new; number of lines, of sections and of entries that are written in `Spec/SavedLines.lean`, storyboards in `Proof/SavedBoard.lean` | the written form of each section (C79, C35, C53, C55) has one line for each entry, none with a line feed, as loaded values have none; sums over the sections; the bound from the entries of each section being at most its rows (C95) |
| C98 | nothing new; the characters that may be written in `Spec/Letters.lean` | each text that is kept from a section is a part of one of its lines (C24, C34, C45, C79), in a storyboard after the values of the variables are put in; the written form (C79, C81) puts only those, numbers and fixed ASCII words together; references put back are names from the text |
| C99 | nothing new; the table in `Spec/Reread.lean` | General: values by kind (C06, C79); timing points and hit objects: columns of the first fault (C56, C59); events: the build without overflow checks reads all versions like version 5 (C87); other pairs by texts checked in all twelve versions; file by C46 and C53 |
| C100 | nothing new | lists: exact value of a text line by line; fields by C06; events: induction on the parts with C69 for any variables; commands: induction on the trees of C29 with the grammar of C35; files by C71 |

No property is partial or inexpressible.

### What was found on the way (each with a proved witness unless marked *)

* Timing points: sample index above `i32::MAX` prints negative and is rejected; effects without the
  uninherited flag, and flag-only values at v≥6, print unparsable lines; v4 volume is lost.
* `calc_bpm` and `calc_slider_velocity_multiplier` panic on beat length 0, which is accepted; multiplier 3 comes back as
  3.0000000000000000000000000003; points without flag (all of v3/v4) say uninherited but have no BPM; `set_uninherited`
  and `effects_mut` can make a point that is written but not read.
* Hit objects: hold notes without hit sample come back with one; v3–9 hit samples and v10–11
  volume and file name are lost; a file name with a colon is cut, a blank one is unstable (v≥12); `|` in a
  v3 slider position cannot be read back.
* Hit object errors: unreadable curve points, edge sounds and edge sets are reported as the next column missing; a
  hold note without colon as an invalid end time.
* `SlideParams::new` sets two private flags to "left out" whatever the lists are, so a slider made by it is not equal to
  the one read back; a file with a default (empty) list section panics when read back.
* Difficulty: the blank after the colon depends on the value, not the key (macro hygiene).
* Metadata: `BeatmapID`/`BeatmapSetID` that are no integers panic. Colours: negative combos cannot be read.
* Tags `[]` prints as an empty text that is read as one empty tag.
* Events: headers `0`–`6`, `Video`, `Break` followed by another character panic; a character index used as a
  byte index panics; an invalid loop type panics; i32 overflow at ±24 panics; `ColourTransformation` is
  dropped at v14; a path with blanks comes back with quotes in it.
* Commands: `T,HitSound12` panics; a missing start time with an end time prints unparsable;
  the reported indentation of a refused push can be unacceptable; push on `Colours` can leave a hole;
  `Rfoo` is reported as `R` without easing, `Spritefoo` as `Sprite` without layer.
* Animations: `frame_file_names` panics on an empty path, and keeps the closing quote of a quoted path in every name.
* Variables: empty values, names with a common beginning, values occurring in earlier names and `$` in commands
  are not undone by reading; they are not replaced in the first line of a sprite; they only work if they
  come before the events, but are always written first.
* Files: an empty section swallows the next header, and at the end panics; a malformed header ends
  reading silently; line numbers are off after gaps and indented first lines; sections that print as an empty text
  break re-saving.
* Equality: equal files can stop being equal by saving and loading them (`a b` and `a b/`, through the quotes put around
  paths); the two spellings of a break or of a number kept as text are not equal.
* Error texts: an unknown key in Metadata is said not to exist in `General`; all number problems of `Countdown` have one text.
* `osu_str_eq`: blanks in values and the order of hit objects are ignored; so are the texts of errors as a whole, so that three
  tests of the repository that compare errors with it cannot fail (section 5).
* \* `ContinuingFields::push_continuing_fields` underflows on an empty list (C31_push_panics gives the condition).

## 3. Trusted base

* Lean's kernel; axioms `propext`, `Classical.choice`, `Quot.sound` only (`AXIOMS.md` lists them per
  theorem). No own axioms, no `sorry`, no `native_decide`.
* The hand translation from Rust to Lean (checked by reading, each definition cites its lines, and by running the
  repository's tests on the model, section 5).
* Assumed behaviour of code outside /repo: Rust std (`str::lines`, `trim`, `parse`, `replace`,
  `contains`, `join`, `sort`, integer formatting; UTF-8 byte order is code point order), nom 7.1.3 combinators,
  `Path::file_name`, `Path::extension` and `Path::components` (equality of paths) on Unix, in C91 on Windows, strum's `EnumString`/`IntoStaticStr` (variant name ↔ variant), `either`'s `Display`,
  thiserror's `#[error]`, `#[from]` and `transparent` (texts and causes), the texts of `ParseIntError`.
* `UniLib`: `char::is_uppercase() || char::is_numeric()` is an arbitrary predicate outside ASCII; the
  theorems hold for every such predicate.
* rust_decimal laws (class `DecLib`, `Verif/Basic/Dec.lean`): parsed values are canonical, canonical
  values are read back from their text, the text of every value consists of digits, `-` and `.`, the empty text
  is no number. Theorems about versions 3 and 4 that need exact ±24 take it as the hypothesis `Offset24Exact`
  (it holds unless the scale leaves no room).
* rust_decimal arithmetic (class `DecArith`, `Verif/Basic/DecArith.lean`, C62–C63 and what builds on them): quotient and product differ from the exact
  value by at most 10⁻²⁷·max(1,|x|), are exact if the exact value is a decimal, and exist up to 10²⁸; division by zero
  panics; the decimal of an `i32` is written as the `i32`. `Dec96` has an instance (`Proof/DecArith96.lean`).
* rust_decimal comparison (class `DecSame`, `Verif/Model/Equality.lean`, C84): two decimals are `==` exactly if their
  normalized forms are the same, and normalizing twice changes nothing. `Dec96` has an instance (`Proof/Equality.lean`).
* `#[derive(PartialEq)]` compares variants and fields one by one (C84).
* `#[derive(Hash)]` hashes the position of the variant and then the fields in order; `Option`, `Vec`, strings and integers
  as in std; rust_decimal hashes the normalized number; paths are hashed by the loop of std for Unix, written out in
  `Model/Hash.lean` (C94). A hash depends on nothing but the calls on the hasher; writing `a` and then `b` is not taken to
  be the same as writing `ab`.
* Overflow checks are on (cargo's dev/test profile), except in C87 and C88, which are about a build without them, where
  integers wrap (`Model/Release.lean` repeats the functions with integer arithmetic); usize is 64 bit except in C93.

## 4. Not modelled

Debug/Clone derives, benches, network, device and verbatim paths on Windows,
getters that return a field. `=` in theorems other than C77 and C84 is equality of spellings, which is finer than `==` for
paths and decimals (C84 says exactly how much).

## 5. The repository's tests on the model

The crate cannot be built here. Instead its tests are run on the model:

* `Verif/Check/RepoTests.lean`: all tests of `src/tests` on single values, sections, parsers, errors and error lines, as
  `example`s that are part of the build (with `Dec96` for rust_decimal). They are tests, not proofs.
* `tools/replay.py`: the tests over whole files (`src/tests/osu_files`). The model reads and prints each of the 49 files of the tests
  (and `v3.osu` as version 14); the results agree with the files up to `osu_str_trimmer`. 50 of 50 agree.

Two tests state another number than the model: `error_line_index_osb` says line 21, the model 20; `error_line_index_sb_in_osu`
says line 46, the model 42. This is the error of the line count of C46 (one less for each earlier section that ends with an
empty line; the test `double_sections` expects the wrong number). The tests pass all the same, since they compare the texts with
`assert_eq_osu_str`, for which the texts of any two errors are equal (`C49_messages`).
