{"id": "C01", "title": "An integer written by the library is read back as the same integer", "statement": "For every value of the integer types used in files (i32, u32, u8, usize), parsing the decimal text the library writes for it succeeds and yields that value; and any text accepted as an integer denotes a value inside the range of the type. The written text is the usual spelling (minus sign if negative, no leading zeros), and no other text is.", "quantifier": "all values of each integer type; all texts", "why_tests_cant": "2^32 (2^64) values per type and infinitely many texts", "anchors": ["src/osu_file/types.rs: Integer", "src/helper/mod.rs: parse_zero_one_bool", "src/osu_file/general/mod.rs: AudioLeadIn, PreviewTime"]}
{"id": "C02", "title": "Decimal fields never lose unparsable text and printing normalises once", "statement": "Parsing a decimal field never fails. If the text is not a valid decimal the field prints exactly the same text. Parsing the printed form of any parsed decimal gives back the same decimal (print after parse is idempotent).", "quantifier": "all texts, all decimal library behaviours satisfying parse(show(d)) = d", "why_tests_cant": "infinitely many texts; tests use a handful of numerals", "anchors": ["src/osu_file/types.rs: Decimal, From<&str>, FromStr, Display, try_make_decimal"]}
{"id": "C03", "title": "File path quoting is stable", "statement": "Printing a file path adds quotes exactly when the path has a space and is not already quoted; reading the printed path and printing it again gives the same text, and a path that needs no quotes is read back unchanged. An event with a path is read back from its line with the path as printed.", "quantifier": "all path texts", "why_tests_cant": "infinitely many paths (spaces, quotes in any position)", "anchors": ["src/osu_file/types.rs: FilePath, VersionedToString for FilePath"]}
{"id": "C04", "title": "Key/value sections round trip (General, Editor, Metadata, Difficulty)", "statement": "For every version and every section value whose fields exist in that version and whose text fields have no line break and no leading blank, printing the section and parsing the text gives back exactly the same section; no other section value of General, Editor, Metadata or Difficulty survives printing and parsing, and every field read from any text can be written.", "quantifier": "all versions, all section values (every subset of fields present, all field contents)", "why_tests_cant": "2^21 field subsets for General alone times unbounded string contents times 12 versions", "anchors": ["src/helper/macros.rs: general_section_inner!", "src/parsers.rs: get_colon_field_value_lines", "src/osu_file/general/mod.rs: General", "src/osu_file/editor/mod.rs: Editor", "src/osu_file/metadata/mod.rs: Metadata", "src/osu_file/difficulty/mod.rs: Difficulty"]}
{"id": "C05", "title": "Order of key/value lines does not matter", "statement": "If a key/value section text made of `key: value` lines parses successfully, any permutation of its lines parses to the same section.", "quantifier": "all lists of lines, all permutations", "why_tests_cant": "factorially many permutations of unboundedly many contents", "anchors": ["src/helper/macros.rs: general_section_inner!"]}
{"id": "C06", "title": "Duplicate, unknown and malformed keys are rejected at their line", "statement": "In a key/value section made of unindented `key: value` lines, the first line whose key was seen before is reported as a duplicate field, the first line whose key is unknown is reported as an invalid key, and a line with no colon is reported as an invalid colon set, each with the index of that line; no section with a repeated or unknown key is ever accepted.", "quantifier": "all lists of lines", "why_tests_cant": "unboundedly many lines, any position of the faulty line", "anchors": ["src/helper/macros.rs: general_section_inner!", "src/parsers.rs: get_colon_field_value_lines"]}
{"id": "C07", "title": "Fields not supported by a version are neither read nor written", "statement": "For each version-gated field (Countdown, SampleSet, Mode, OverlayPosition, AudioHash, EditorBookmarks, EditorDistanceSpacing, CurrentTime, Colours section, storyboard file) the library writes the field exactly for the versions that support it, and on reading yields no value for unsupported versions where reading is gated. The exception is Mode, which is written in every version although versions below 10 read Mania (and older ones further modes) as no value.", "quantifier": "all versions (u8), all field values and texts", "why_tests_cant": "all 256 versions times unbounded texts", "anchors": ["src/osu_file/general/types.rs: Countdown, SampleSet, Mode, OverlayPosition", "src/osu_file/general/mod.rs: AudioHash, EditorBookmarks, EditorDistanceSpacing", "src/osu_file/editor/mod.rs: CurrentTime", "src/osu_file/colours/mod.rs: Colours", "src/osu_file/osb/mod.rs: Osb"]}
{"id": "C08", "title": "Bookmark lists and tag lists", "statement": "Every list of integers written as bookmarks is read back as the same list; a bookmark text is accepted exactly when it is empty or a comma separated list of integers, and never makes the parser panic. For every text, the tags parsed from it print back to exactly the same text; every non-empty list of tags without blanks is read back unchanged.", "quantifier": "all integer lists, all texts", "why_tests_cant": "unbounded lists and texts", "anchors": ["src/osu_file/editor/mod.rs: Bookmarks", "src/osu_file/general/mod.rs: EditorBookmarks", "src/osu_file/metadata/mod.rs: Tags"]}
{"id": "C09", "title": "Boolean fields", "statement": "A 0/1 field accepts exactly the integers zero and one, prints `0`/`1`, and round trips.", "quantifier": "all texts", "why_tests_cant": "infinitely many texts", "anchors": ["src/helper/mod.rs: parse_zero_one_bool", "src/helper/macros.rs: versioned_field! (boolean)"]}
{"id": "C10", "title": "Exactly which metadata texts panic", "statement": "Parsing a text as a Metadata section returns Ok or Err, unless every line has a colon and, after entries that are accepted, there is a new BeatmapID or BeatmapSetID entry whose value is not an i32: then, and only then, it panics.", "quantifier": "all texts, all versions", "why_tests_cant": "needs every text; the panicking ones are not in the test files", "anchors": ["src/osu_file/metadata/mod.rs: BeatmapID, BeatmapSetID"]}
{"id": "C11", "title": "A combo or slider colour round trips", "statement": "Every colour entry with a non-negative combo index prints to a line that parses back to the same entry. (False for negative combo indices, which the type allows.)", "quantifier": "all i32 combo indices, all 2^24 rgb values", "why_tests_cant": "2^32 * 2^24 values", "anchors": ["src/osu_file/colours/mod.rs: Colour", "src/osu_file/colours/types.rs: Rgb"]}
{"id": "C12", "title": "Colours section round trips and keeps order", "statement": "For every version of 5 or more and every list of colours with non-negative combo indices, printing and re-parsing the section gives the same list, and no list with a negative combo index survives; for versions 3 and 4 the section is dropped in both directions.", "quantifier": "all lists, all versions", "why_tests_cant": "unbounded lists", "anchors": ["src/osu_file/colours/mod.rs: Colours"]}
{"id": "C13", "title": "Line based sections report the first offending line", "statement": "For Colours, TimingPoints, HitObjects and Events, when parsing fails the reported line index is the index of the first line (counting blank lines) whose content is rejected; every earlier line is blank or accepted, and the index is smaller than the number of lines.", "quantifier": "all texts, all versions", "why_tests_cant": "unbounded number of lines before the failure", "anchors": ["src/osu_file/colours/mod.rs: Colours::from_str", "src/osu_file/timingpoints/mod.rs: TimingPoints::from_str", "src/osu_file/hitobjects/mod.rs: HitObjects::from_str", "src/osu_file/events/mod.rs: Events::from_str_variables"]}
{"id": "C14", "title": "Blank lines never change what a line based section means", "statement": "Inserting or removing whitespace-only lines anywhere in a Colours, TimingPoints, HitObjects or Events section does not change the parsed value of a section that parses.", "quantifier": "all texts, all insertion positions", "why_tests_cant": "unboundedly many texts and positions", "anchors": ["src/osu_file/colours/mod.rs", "src/osu_file/timingpoints/mod.rs", "src/osu_file/hitobjects/mod.rs", "src/osu_file/events/mod.rs"]}
{"id": "C15", "title": "A timing point round trips in every version", "statement": "For every version 3..14 and every timing point using only what the version can express, printing and re-parsing gives the same timing point. (False for sample indices above i32::MAX, which print as a negative number.) Exactly: a timing point is read back unchanged if and only if its decimals survive (a number that the decimal library reads back from its own text, shifted by 24 in versions 3 and 4, or text that is no number and has no comma, except in the beat length up to version 3), its sample set and index have a number that names them, and what the version does not write has its default.", "quantifier": "all versions, all timing points", "why_tests_cant": "cross product of unbounded decimals, 32 bit integers, optional tails, versions", "anchors": ["src/osu_file/timingpoints/mod.rs: TimingPoint", "src/osu_file/timingpoints/types.rs: SampleIndex, SampleSet, Volume, Effects"]}
{"id": "C16", "title": "TimingPoints section keeps all points in order", "statement": "Printing and re-parsing a list of timing points gives the same list, same length and same order, exactly if every point survives by itself, no text in it has a line feed and, up to version 3, no beat length but that of the last point ends in a carriage return.", "quantifier": "all lists, all versions", "why_tests_cant": "unbounded lists", "anchors": ["src/osu_file/timingpoints/mod.rs: TimingPoints"]}
{"id": "C17", "title": "Missing trailing timing point fields take the documented defaults", "statement": "A v3 line with only time and beat length yields meter 4, sample set Normal, sample index 1 and volume 100; a v4 line without volume yields volume 100; the optional tails uninherited/effects are absent exactly when the line ends before them.", "quantifier": "all field contents", "why_tests_cant": "unbounded field contents in each truncated form", "anchors": ["src/osu_file/timingpoints/mod.rs: TimingPoint::from_str"]}
{"id": "C18", "title": "Timing point effect flags are independent bits", "statement": "Kiai and omit-first-barline can be read and set independently: after setting one to a value it reads that value and the other, as well as all unknown bits, are unchanged; clearing unknown bits keeps both flags; over any sequence of such operations the flags equal the last values set.", "quantifier": "all bit patterns, all sequences of operations", "why_tests_cant": "unbounded operation histories", "anchors": ["src/osu_file/timingpoints/types.rs: Effects"]}
{"id": "C19", "title": "Hit object type byte encodes and decodes losslessly", "statement": "For every object kind, new-combo flag and combo skip count, decoding the printed type number gives back the same kind, flag and skip count; for every i32 the kind decoded is the lowest set bit among 0,1,3,7 in that order.", "quantifier": "all kinds, flags, skip counts; all i32 type numbers", "why_tests_cant": "2^32 type numbers", "anchors": ["src/osu_file/hitobjects/mod.rs: HitObject::from_str, type_to_string", "src/helper/mod.rs: nth_bit_state_i64"]}
{"id": "C20", "title": "A hit object round trips", "statement": "For every version and every hit circle, slider, spinner and hold note in the canonical form the parser produces for that version, printing and re-parsing gives the same object; an object is read back unchanged exactly if its decimals are numbers the decimal library reads back or text that is no number and has no comma (times, ends and curve points with the limits of their version and column), it skips at most 7 colours, its sample sets are named, a volume is 1 to 100, a custom index is not 0, the file name has no colon and is empty or not blank, a sample is present exactly where its kind and version write one, and the short forms of a slider are used only for empty lists at the end of the line. Any other object a version can write comes back with only its hit sample and short forms changed and prints identically, except a hold note without a hit sample.", "quantifier": "all versions, all hit objects", "why_tests_cant": "unbounded curve points, edge lists, decimals and text", "anchors": ["src/osu_file/hitobjects/mod.rs: HitObject", "src/osu_file/hitobjects/types.rs: CurvePoint, EdgeSet, HitSample"]}
{"id": "C21", "title": "HitObjects section keeps all objects in order", "statement": "Printing and re-parsing a list of hit objects gives the same list exactly if every object is read back unchanged by itself, no text in it has a line feed, and no object but the last ends in a text that ends in a carriage return.", "quantifier": "all lists, all versions", "why_tests_cant": "unbounded lists", "anchors": ["src/osu_file/hitobjects/mod.rs: HitObjects"]}
{"id": "C22", "title": "Hit sound flags are independent and only the four known bits survive", "statement": "Setting one of normal/whistle/finish/clap changes no other flag; a hit sound parsed from a number prints that number with all but the low four bits cleared; the sound counts as normal when no flag is set.", "quantifier": "all u8 values, all operation sequences", "why_tests_cant": "operation histories are unbounded", "anchors": ["src/osu_file/hitobjects/types.rs: HitSound"]}
{"id": "C23", "title": "Hit samples: trailing fields default, output depends on version", "statement": "Every prefix of `normal:addition:index:volume:filename` parses with the missing fields taking defaults; for version 12 and up a hit sample round trips, for 10 and 11 its first three fields do, below 10 nothing is written.", "quantifier": "all field values and texts, all versions", "why_tests_cant": "unbounded texts", "anchors": ["src/osu_file/hitobjects/types.rs: HitSample"]}
{"id": "C24", "title": "Bounded numbers stay in bounds", "statement": "A combo skip count is always at most 7, a hit sample volume is always absent or 1..100, an audio sample volume is always at most 100, after any sequence of constructor, parse and set calls; rejected sets leave the value unchanged.", "quantifier": "all u8/i32 arguments, all operation sequences", "why_tests_cant": "histories are unbounded", "anchors": ["src/osu_file/hitobjects/types.rs: ComboSkipCount, Volume", "src/osu_file/events/audio_sample/mod.rs: Volume"]}
{"id": "C25", "title": "Numeric enum codes are lossless", "statement": "For every i32, converting it to Easing (or the numeric sample set, layer, origin, curve types) and back gives the same number, so unknown codes survive a round trip; distinct codes give distinct values. Distinct u32 give distinct sample indices of timing points; their text is the number and is read back exactly up to i32::MAX.", "quantifier": "all i32", "why_tests_cant": "2^32 codes", "anchors": ["src/osu_file/events/storyboard/cmds/types.rs: Easing", "src/osu_file/timingpoints/types.rs: SampleSet", "src/osu_file/hitobjects/types.rs: SampleSet"]}
{"id": "C26", "title": "Old beatmaps: times are shifted by 24 ms on load and shifted back on save", "statement": "In versions 3 and 4 numeric times of hit objects, timing points, breaks, videos are 24 larger in memory than in the text and are written 24 smaller; in other versions they are unchanged. Loading then saving leaves the written number unchanged when the addition does not overflow. (An i32 event time within 24 of i32::MAX overflows.)", "quantifier": "all versions, all times", "why_tests_cant": "2^32 times and unbounded decimals", "anchors": ["src/osu_file/hitobjects/mod.rs: OLD_VERSION_TIME_OFFSET", "src/osu_file/timingpoints/mod.rs", "src/osu_file/events/normal_event/mod.rs"]}
{"id": "C27", "title": "A storyboard command line round trips", "statement": "For every command kind and every parameter value in the form the parser produces, printing the command with any indentation and parsing the line gives the same command (without nested commands), and no other command whose text is one line is read back as itself. A line is accepted exactly if its comma separated pieces have the documented form.", "quantifier": "all commands, all versions", "why_tests_cant": "unbounded continuing parameter lists, 32 bit times, decimals", "anchors": ["src/osu_file/events/storyboard/cmds/mod.rs: Command"]}
{"id": "C28", "title": "Nested commands print depth first with one blank per level", "statement": "The commands of an event are printed in depth-first order, each on its own line, indented by one blank per nesting level; the explicit-stack printer agrees with this recursive description for every nesting.", "quantifier": "all command forests (any depth and width)", "why_tests_cant": "unbounded trees", "anchors": ["src/osu_file/events/mod.rs: commands_to_string_variables"]}
{"id": "C29", "title": "Indented command lines rebuild exactly the nesting that was printed", "statement": "Feeding the depth-first list of (indentation, command) of any forest whose inner nodes are loops or triggers to the push operation, one after another, rebuilds exactly that forest.", "quantifier": "all command forests", "why_tests_cant": "unbounded trees", "anchors": ["src/osu_file/events/mod.rs: EventWithCommands::try_push_cmd"]}
{"id": "C30", "title": "A pushed command goes to the end or is rejected without effect", "statement": "Pushing a command at an indentation either appends it as the last command in depth-first order with all existing commands unchanged, or returns an error and changes nothing; it never panics for indentation of 1 or more. Indentation is accepted exactly when it is at most one deeper than the last command that can hold children.", "quantifier": "all forests, commands, indentations", "why_tests_cant": "unbounded trees and indentations", "anchors": ["src/osu_file/events/mod.rs: EventWithCommands::try_push_cmd"]}
{"id": "C31", "title": "Only the last continuing pair of a command may be incomplete", "statement": "Every two-field continuing list produced by parsing or by the checked constructor has both fields in all entries but possibly the last; pushing an entry and replacing an entry keep this or are refused. A push panics exactly for a list whose only entry is incomplete, a replacement exactly for an empty list (builds with overflow checks).", "quantifier": "all texts, all operation sequences", "why_tests_cant": "unbounded lists and histories", "anchors": ["src/osu_file/events/storyboard/cmds/mod.rs, storyboard/types.rs: ContinuingFields"]}
{"id": "C32", "title": "Only the last continuing colour of a colour command may be incomplete", "statement": "Every colour command obtained by parsing has complete rgb triples except possibly the last; replacing an entry keeps this or is refused (it panics exactly for an empty list); a push keeps it exactly when the last entry does not lack both green and blue (otherwise only green is filled in) and the new entry does not have blue without green; it panics exactly for a list whose only entry is incomplete.", "quantifier": "all texts, all operation sequences", "why_tests_cant": "unbounded lists and histories", "anchors": ["src/osu_file/events/storyboard/types.rs, cmds: Colours::new, push_continuing_rgbs, set_continuing_rgbs"]}
{"id": "C33", "title": "Trigger types round trip", "statement": "A trigger type is read back from its text exactly if its additions sample set comes with a sample set and its custom sample set has one digit; every trigger type obtained by reading is of that form. (Two digits panic on reading.)", "quantifier": "all trigger types", "why_tests_cant": "unbounded custom sample numbers", "anchors": ["src/osu_file/events/storyboard/cmds/types.rs: TriggerType"]}
{"id": "C34", "title": "Event lines round trip", "statement": "Every comment, background, video, break, colour transformation, legacy sprite/animation/sample, sprite, animation and audio sample event in the form the parser produces prints to a line that is classified as the same kind and parses back to the same event, except that a path with blanks comes back with its quotes as part of the path; every event read has that form, except for a colour transformation in version 14, which is dropped.", "quantifier": "all events, all versions", "why_tests_cant": "unbounded file names, decimals, times", "anchors": ["src/osu_file/events/normal_event/mod.rs", "src/osu_file/events/storyboard/sprites.rs: Object", "src/osu_file/events/audio_sample/mod.rs: AudioSample"]}
{"id": "C35", "title": "Events section round trips with its nested commands", "statement": "Printing an events section (events with nested commands) and re-parsing it gives the same events, same order, same nesting. When no line of the printed text ends in a carriage return, the section is read back unchanged exactly if every event of it has a form the parser produces and no path in it has a space without being in quotes.", "quantifier": "all event lists", "why_tests_cant": "unbounded lists of trees", "anchors": ["src/osu_file/events/mod.rs: Events"]}
{"id": "C36", "title": "Exactly which events texts panic", "statement": "Parsing any text as an Events section returns Ok or Err unless, after lines that are accepted, there is (a) an event line with a known header (digits 0-6, Video, Break, ...) that is neither the whole line nor followed by a comma, (b) a version 3-4 time that overflows when moved by 24, (c) an animation with an unknown loop type, or (d) a command line whose first comma, counted in characters, is not a byte boundary, or that is a trigger with a word after its custom sample set; in those cases it panics.", "quantifier": "all texts, all versions", "why_tests_cant": "all texts are needed; the panicking ones are absent from the test files", "anchors": ["src/osu_file/events/mod.rs: Events::from_str_variables"]}
{"id": "C37", "title": "Storyboard variable definitions", "statement": "A line is accepted as the definition of a variable exactly when it is `$`, a name without `=` and line feed, `=`, and the value up to the end of the line; a line not starting with `$` and a line with `$` but without `=` are told apart by the error, and nothing panics. A variable is read back from its printed definition exactly if its name has no `=` and no line feed; what is read prints as the same line.", "quantifier": "all names, values, texts", "why_tests_cant": "unbounded texts", "anchors": ["src/osu_file/osb/types.rs: Variable"]}
{"id": "C38", "title": "Variable substitution is undone by printing with variables and vice versa", "statement": "Printing a command line with variables replaces, for each variable in order, the separate leftmost occurrences of its (non-empty) value after the first comma by `$name`; reading replaces the references by the values in the same order and then reads the command. Events printed with variables are read back with the same variables if values are not empty, no `$` occurs in names, values and commands, no name begins with the name of another variable, and no value begins with a character of the name of an earlier variable. When the variables can be written and no line of the printed text ends in a carriage return this is made exact: the events come back unchanged exactly if each of them can be written, has a path that needs no quotes, and each of its commands is read back from its own printed line (in the lines of backgrounds and videos no references are written, but they are looked for). Texts without `$` are read as if there were no variables. (False without these conditions: empty value, names that begin alike, values occurring in earlier names, `$` in commands.)", "quantifier": "all lines, all lists of variables, all events", "why_tests_cant": "unbounded texts and variable lists", "anchors": ["src/osu_file/events/storyboard/cmds/mod.rs: Command::to_string_variables", "src/osu_file/events/mod.rs: from_str_variables"]}
{"id": "C39", "title": "A storyboard file round trips", "statement": "From version 14 on, printing a storyboard with non-empty sections and re-parsing it gives the same variables and events, under the conditions of C38 on variables and of C35 on events; for printed texts in which no line ends in a carriage return, a storyboard comes back unchanged exactly if its variables can be written, there is at least one if the list is present together with events, and the events are kept as in C38 (so empty lists of events, and an empty list of variables without events, do come back); re-saving an accepted storyboard gives a text that is accepted and saved as itself. For versions below 14 reading and writing yield nothing. (False for a present but empty list of variables, and for variables that come after the events that refer to them.)", "quantifier": "all osb values, all texts, all versions", "why_tests_cant": "unbounded", "anchors": ["src/osu_file/osb/mod.rs: Osb"]}
{"id": "C40", "title": "Appending an .osb is all or nothing", "statement": "append_osb either fails and leaves the file value unchanged or succeeds and changes only the storyboard; the text of the .osu file is the same before and after. A storyboard accepted later replaces the earlier one, a refused one does not. osb_to_string gives a text exactly from version 14 on and only if there is a storyboard; before, append_osb accepts any text and keeps nothing. The text osb_to_string gives, appended to any file of that version, gives that file the same storyboard (with quotes around paths that need them), and the identical storyboard exactly under the conditions of C39.", "quantifier": "all files, all osb texts", "why_tests_cant": "all texts incl. every failing one", "anchors": ["src/osu_file/mod.rs: OsuFile::append_osb, osb_to_string, Display"]}
{"id": "C41", "title": "A whole beatmap file round trips", "statement": "For every version 3..14 and every file value without storyboard whose present sections have a non-empty text, can be expressed in that version, and whose timing points and hit objects do not begin with a decimal that is a text looking like a section header (or, for the first of them, a blank), printing the file and parsing it gives the same file. (False for a present but empty section.) When no line of the printed text ends in a carriage return this is exact: no other file value survives printing and parsing.", "quantifier": "all file values, all versions", "why_tests_cant": "product of all section value spaces", "anchors": ["src/osu_file/mod.rs: OsuFile, Display, FromStr"]}
{"id": "C42", "title": "Saving is stable: parse, print, parse, print gives the same text", "statement": "If a section text or file text is accepted, printing the result gives a text that is accepted again and prints to itself. This holds for every accepted text of a key/value section and of Colours; for Events, TimingPoints, HitObjects and files for texts without carriage returns inside lines; for TimingPoints and HitObjects with the exceptions of C15 and C20 (sample index above i32::MAX, file name of blanks, `|` in a slider position of version 3, decimals that cannot be moved by 24 exactly); for files if moreover every present section has a non-empty text and lines do not end in blanks other than spaces and tabs. For files it is also exact: a loaded file whose printed text has no carriage return at the end of a line is read from it as what its version writes of it exactly if each section has something to write and none of those exceptions occurs, and what is read prints to that text.", "quantifier": "all texts", "why_tests_cant": "all accepted texts, not only canonical ones", "anchors": ["src/osu_file/mod.rs: OsuFile", "all from_str / to_string"]}
{"id": "C43", "title": "Section order in a file does not matter", "statement": "Two texts with the same version whose sections are the same up to their order, to blank lines after each section and to comments before the first one are accepted as the same file values; the printed file always lists sections in the fixed order General, Editor, Metadata, Difficulty, Events, TimingPoints, Colours, HitObjects, each at most once, after the version header and without the storyboard.", "quantifier": "all files, all permutations of sections", "why_tests_cant": "8! orders times all contents", "anchors": ["src/osu_file/mod.rs: OsuFile"]}
{"id": "C44", "title": "Repeated and unknown sections are rejected", "statement": "A file with the same section twice or with a section of another name is never accepted; when the sections before it are read, the error is DuplicateSections or UnknownSection at the line counted for its header.", "quantifier": "all texts", "why_tests_cant": "all texts", "anchors": ["src/osu_file/mod.rs: OsuFile::from_str", "src/osu_file/osb/mod.rs"]}
{"id": "C45", "title": "Version header", "statement": "A file text is accepted only if, after optional blanks and an optional byte order mark, it starts with `osu file format v` and an integer from 3 to 14 up to the end of the line; any other header gives FileVersionDefinedWrong or InvalidFileVersion, never a panic; the version stored is the one written.", "quantifier": "all texts", "why_tests_cant": "all texts", "anchors": ["src/osu_file/mod.rs: OsuFile::from_str"]}
{"id": "C46", "title": "File level errors name the right line, up to a known error of the count", "statement": "When parsing a whole file fails at a section, the reported line index is the index of the offending line in the input, minus one for each earlier section that ends with an empty line, plus one for each run of blanks in front of the version header, a section header or a content on the same line. It is the right line when there are none of these. (A line before the first section is reported without the lines before the header.)", "quantifier": "all texts", "why_tests_cant": "any number of preceding sections, blank lines, indentation", "anchors": ["src/osu_file/mod.rs: OsuFile::from_str (line_number)", "src/osu_file/types.rs: Error::processing_line"]}
{"id": "C47", "title": "Parsing a file text panics only at an empty last section or where a section's parser does", "statement": "Parsing any text as a beatmap file returns Ok or Err, except exactly when the header is good, the sections before are read, and a known new section is accepted but empty, or its own parser panics.", "quantifier": "all texts", "why_tests_cant": "all texts", "anchors": ["src/osu_file/mod.rs: OsuFile::from_str"]}
{"id": "C48", "title": "osu_str_eq is an equivalence that ignores what it promises to ignore", "statement": "osu_str_eq is reflexive, symmetric, transitive; it is unaffected by blank lines, by blanks around lines, by CRLF vs LF, by byte order marks that are not next to a blank, and by the order of the lines of a section in which every line has a colon. Trimming twice equals trimming once on every text in which no byte order mark is next to a blank; on every text trimming three times equals trimming twice. (False for byte order marks next to blanks.) The trimmed form is characterised exactly.", "quantifier": "all texts, all edits of those kinds", "why_tests_cant": "unbounded texts", "anchors": ["src/lib.rs: osu_str_trimmer, osu_str_eq"]}
{"id": "C49", "title": "What osu_str_eq does not ignore", "statement": "Two texts (without byte order marks next to blanks) are equal under osu_str_eq exactly if they have the same format line in the first place, the same section headers in the same order, and in each section the same lines, up to the blanks in lines with a colon, and up to the order if all lines of the section have a colon. (So it is false that only spacing around the key is ignored: files with different tags and files with differently ordered hit objects are equal, and all other text before the first section is ignored. Texts without section headers, such as those of any two errors, are equal unless they begin with different format lines.)", "quantifier": "all pairs of texts", "why_tests_cant": "needs all pairs of texts", "anchors": ["src/lib.rs: osu_str_trimmer, osu_str_eq"]}
{"id": "C50", "title": "Key/value, colour, timing point and hit object parsing never panics", "statement": "Parsing any text as General, Editor, Difficulty, Colours, TimingPoints or HitObjects returns Ok or Err, apart from arithmetic overflow of the decimal library in versions 3 and 4; in particular every parser error carries the context needed to build the error value, so the `unreachable!` conversions are never reached.", "quantifier": "all texts, all versions", "why_tests_cant": "all texts", "anchors": ["src/helper/macros.rs: verbose_error_to_error!", "src/osu_file/general", "src/osu_file/editor", "src/osu_file/difficulty", "src/osu_file/colours", "src/osu_file/timingpoints", "src/osu_file/hitobjects"]}
{"id": "C51", "title": "Error messages show the offending line", "statement": "Display shows the line index plus one; display_error_with_line shows the line of the given text at that index, or an empty line when out of range; nesting an error in a section at offset k adds k to its line index. An error given a line carries that line and the original error, and converting the inner error keeps the line.", "quantifier": "all errors, all texts, all offsets", "why_tests_cant": "unbounded", "anchors": ["src/osu_file/types.rs: Error"]}
{"id": "C52", "title": "Spacing of a printed difficulty line", "statement": "A printed Difficulty line is the key, a colon and the value, in the order of the fields. A blank follows the colon only in versions 3 and 4, and there it depends on the value and not on the key (macro hygiene: the printed value is compared with key names), so no line with a number has one.", "quantifier": "all versions, all section values", "why_tests_cant": "unbounded values; the tests compare parsed sections, which ignore the blank", "anchors": ["src/helper/macros.rs: general_section!, general_section_inner!", "src/osu_file/difficulty/mod.rs: Difficulty"]}
{"id": "C53", "title": "What an accepted file consists of, and what is ignored", "statement": "A text is accepted exactly when it is a header with a known version, blank lines and comments, and sections with different known names and accepted non-empty contents; the value is the one these sections stand for. What follows the last of these sections, from a line that begins with `[` but is not a section header on, is ignored; nothing is ignored when every line that begins with `[` is a header. (So it is false that no part of an accepted file is ignored.)", "quantifier": "all texts", "why_tests_cant": "all texts; accepted texts in the tests contain no malformed header", "anchors": ["src/osu_file/mod.rs: OsuFile::from_str", "src/osu_file/osb/mod.rs: Osb::from_str", "src/parsers.rs: square_section"]}
{"id": "C54", "title": "A refused push reports the indentation asked for and an acceptable one", "statement": "The error of a refused command push carries the indentation asked for, and as expected indentation one that would be accepted. (Exactly: it is acceptable unless the last command can hold commands, in which case it is two less than the deepest acceptable one, and 0, which panics, when that command is at the outermost level.)", "quantifier": "all forests, commands, indentations", "why_tests_cant": "unbounded trees", "anchors": ["src/osu_file/events/mod.rs: EventWithCommands::try_push_cmd", "src/osu_file/events/error.rs: InvalidIndentation"]}
{"id": "C55", "title": "What is accepted as a storyboard file, and how it fails", "statement": "From version 14 on a text is accepted as a storyboard exactly when the lines before the first section are blank or comments and the sections are at most one Variables and at most one Events section, each with accepted content; the variables are used in the events exactly if they come first. Any other outcome is decided by the first unexpected line, or by the first section that is repeated, unknown or not accepted, and carries its line; a panic comes only from the content of the Events section.", "quantifier": "all texts, all versions", "why_tests_cant": "all texts, incl. every failing one", "anchors": ["src/osu_file/osb/mod.rs: Osb::from_str"]}
{"id": "C56", "title": "The error of a timing point line names its first bad column", "statement": "A timing point line is refused exactly when a column is missing or unreadable (the columns that have to be there depend on the version and on the number of pieces), and the error names the first such column and whether it is missing or unreadable; a section is refused, or panics, exactly if its first line that is neither blank nor accepted does, with the error of that line and its number.", "quantifier": "all lines, all versions", "why_tests_cant": "all lines, with several faults at once, in every combination of version and number of columns", "anchors": ["src/osu_file/timingpoints/mod.rs: TimingPoint::from_str", "src/osu_file/timingpoints/error.rs"]}
{"id": "C57", "title": "The error of a storyboard command line names its first bad column", "statement": "A command line that does not panic is refused exactly when its name is unknown or a column of that command is missing or unreadable, and the error names the first such column. (A name that only starts with a command's name is reported as that command without its first value.)", "quantifier": "all lines", "why_tests_cant": "all lines of all commands, with several faults at once", "anchors": ["src/osu_file/events/storyboard/cmds/mod.rs: Command::from_str", "src/osu_file/events/storyboard/error.rs"]}
{"id": "C58", "title": "The error of an events section is the fault of its first bad line", "statement": "An Events section is refused at line k with error e exactly when the lines before are accepted and line k has that fault: a line that starts no event (the error names the first missing or unreadable column of the event it names), a command after an event that has no commands, a faulty command, or a command indented too far. In a storyboard file with variables the same holds of the command that the line stands for after its references are replaced; it panics exactly if a line does after lines that are accepted.", "quantifier": "all texts, all versions, all variables", "why_tests_cant": "all texts, with several faulty lines and columns", "anchors": ["src/osu_file/events/mod.rs: Events::from_str", "src/osu_file/events/error.rs", "src/osu_file/events/storyboard/sprites.rs: Object::from_str"]}
{"id": "C59", "title": "The error of a hit object line names its first bad column", "statement": "A hit object line is refused exactly when a column is missing or unreadable or its type number has no kind, and the error names the first such column, except that unreadable curve points, edge sounds and edge sets are reported as the next column missing; it panics exactly when its time, or the end time of a spinner or hold note whose first five columns are fine, overflows in versions 3 and 4. A section is refused, or panics, exactly if its first line that is neither blank nor accepted does, with the error of that line and its number.", "quantifier": "all lines, all versions", "why_tests_cant": "all lines of all four kinds, with several faults at once", "anchors": ["src/osu_file/hitobjects/mod.rs: HitObject::from_str", "src/osu_file/hitobjects/error.rs"]}
{"id": "C60", "title": "Colour lines: exact grammar, and errors that name the first fault", "statement": "A line is read as a colour exactly if, without the blanks around it, it is a name (Combo and digits that fit an i32, SliderTrackOverride, SliderBorder or Sliderborder), blanks, a colon and three bytes separated by commas with blanks around them; any other line is refused, with the error of its first fault (unknown name, combo number, colon, then red, green, blue missing or unreadable). A section is refused exactly if it has such a line, with the error of the first one and its number.", "quantifier": "all lines", "why_tests_cant": "all lines, incl. every combination of faults; the error is found by parsing a second time", "anchors": ["src/osu_file/colours/mod.rs: Colour::from_str", "src/osu_file/colours/types.rs: Rgb::from_str", "src/osu_file/colours/error.rs"]}
{"id": "C61", "title": "File names of the frames of an animation", "statement": "frame_file_names gives one name per frame, all different: the file name of the path with the number of the frame, from 0, in front of the extension (at the end if there is none), without the directory. It panics exactly if the path has no file name. (Quotes around the path in a file count as part of it, so then every name ends with a quote.)", "quantifier": "all paths, all frame counts", "why_tests_cant": "all paths: dots in directories, several dots, hidden files, trailing slashes", "anchors": ["src/osu_file/events/storyboard/sprites.rs: Animation::frame_file_names"]}
{"id": "C62", "title": "BPM, slider velocity and the constructors of timing points", "statement": "The BPM of an uninherited timing point is 60000 divided by its beat length, the slider velocity multiplier of an inherited one is -100 divided by it, up to the rounding of decimals; a multiplier (0.01 to 100) or BPM (1 to 60000) given to a constructor or conversion comes back with an error of at most 10^-20, and exactly if the intermediate results are decimals. Points without the flag (all of versions 3 and 4) have neither, though they say they are uninherited. Beat length or multiplier zero panics. Constructed points are written and read back unchanged from version 5 on.", "quantifier": "all timing points, all decimals in the stated ranges", "why_tests_cant": "an error bound over all decimals; tests compare a few exact quotients", "anchors": ["src/osu_file/timingpoints/mod.rs: new_inherited, new_uninherited, calc_bpm, calc_slider_velocity_multiplier, beat_duration_ms_to_bpm, bpm_to_beat_duration_ms"]}
{"id": "C63", "title": "Changing a timing point changes only the columns named", "statement": "After any sequence of calls of the setters, the line of a timing point (version 5 or later, all columns present) differs from the old one exactly in the columns that were set, which say what was last set there, and reading it gives the changed point. Setting the flag of a point without effects (version 6 on), or the effects of a point without flag, gives a line that cannot be read.", "quantifier": "all timing points, all sequences of changes", "why_tests_cant": "sequences of arbitrary length over all values", "anchors": ["src/osu_file/timingpoints/mod.rs: set_time, set_meter, set_sample_set, sample_index_mut, set_volume, set_uninherited, effects_mut"]}
{"id": "C64", "title": "Default values", "statement": "Each field of General that has a default has one exactly in the versions that write the field; the default's text is the documented one in all versions, and a General section of defaults (any fields absent) is written and read back unchanged. A new file of version 3 to 14 is written and read back unchanged. The default circle and spinner are (from version 5 on), the default hold note comes back with a hit sample. The default tag list comes back as one empty tag, and a file whose hit objects are the default (empty) list panics when read back.", "quantifier": "all versions, all subsets of the fields", "why_tests_cant": "all versions times all subsets of fields", "anchors": ["src/osu_file/types.rs: VersionedDefault", "src/osu_file/general/mod.rs", "src/osu_file/hitobjects/mod.rs: hitcircle_default, spinner_default, osu_mania_hold_default", "src/osu_file/mod.rs: OsuFile::new, default"]}
{"id": "C65", "title": "Sliders made by the constructor", "statement": "A slider made with SlideParams::new is written to a line that is read as the same slider and written as the same line again, but the read slider is equal to it only if it has no edge sounds, edge sets and hit sample: two private flags, that say whether the lists were written, differ otherwise (and hit samples depend on the version).", "quantifier": "all writable sliders, all versions", "why_tests_cant": "all lists of edge sounds and sets", "anchors": ["src/osu_file/hitobjects/mod.rs: SlideParams::new, HitObject::to_string, HitObject::from_str"]}
{"id": "C66", "title": "What the text of an error says", "statement": "The text of the error for a refused timing point, hit object, storyboard command, event or colour names the first missing or unreadable column (apart from the columns reported as another one, see C59), in the words Missing `x` field and Invalid `x` value. The same holds for the `$` and the `=` of a variable. The text of any error of an .osu or .osb file, with or without the offending line, is a single line, and the line number and the text of the cause can be read off it. Within one kind of line different errors have different texts. Exceptions: number problems of several fields of General share their texts, and an unknown key in Metadata is reported as one that does not exist in General.", "quantifier": "all lines, all versions, all errors", "why_tests_cant": "all combinations of faults and all error values; tests look at a few texts", "anchors": ["src/osu_file/types.rs: Display for Error, display_error_with_line", "src/osu_file/*/error.rs", "src/osu_file/mod.rs: ParseError"]}
{"id": "C67", "title": "Which versions behave alike", "statement": "Two files that differ in the number of the version only are read alike (same values, same errors on the same lines, same panics) if none of the versions 4, 5, 6, 7, 10, 14 is above one and not above the other, and two versions read all files alike only then. The same holds for writing with 4, 5, 6, 10, 11, 12, 14, and section by section with fewer versions. So a file taken to another version of the same era for both is written and read back as before, with the new number.", "quantifier": "all texts, all file values, all pairs of versions", "why_tests_cant": "all texts times all pairs of versions; that nothing changes elsewhere cannot be sampled", "anchors": ["src/osu_file/mod.rs: OsuFile::from_str, Display for OsuFile", "src/osu_file/types.rs: VersionedFromStr, VersionedToString"]}
{"id": "C68", "title": "Line endings", "statement": "Whether a line of a .osu or .osb file or of the text of any section ends with a line feed or with carriage return and line feed, line by line, makes no difference to what is read, to errors and their lines, or to panics. Nor does a line feed at the very end of a text that does not end in a carriage return or, for a whole file, in a line feed. A carriage return alone is no line end, and of two carriage returns before a line feed the first belongs to the line.", "quantifier": "all texts, all versions, all mixtures of line endings", "why_tests_cant": "2^n mixtures for a text of n lines, in every text; tests use one ending throughout", "anchors": ["src/osu_file/mod.rs: OsuFile::from_str", "src/osu_file/osb/mod.rs: Osb::from_str", "src/parsers.rs: get_colon_field_value_lines"]}
{"id": "C69", "title": "Reading texts one after the other", "statement": "The timing points, hit objects or colours of two texts, one below the other, are those of the first followed by those of the second; the first error or panic counts, and an error of the second text is placed below the lines of the first. The same holds for events if the second text does not start with an indented line. If the first text of General, Editor, Metadata or Difficulty has an entry, both texts are entries throughout and the second does not start with a blank, the two texts, one below the other, are accepted exactly if both are and no key occurs in both, and the values are those of either.", "quantifier": "all pairs of texts, all versions", "why_tests_cant": "all pairs of texts; tests read single texts", "anchors": ["src/osu_file/timingpoints/mod.rs: from_str", "src/osu_file/hitobjects/mod.rs: from_str", "src/osu_file/colours/mod.rs: from_str", "src/osu_file/events/mod.rs: from_str", "src/osu_file/general/mod.rs: from_str"]}
{"id": "C70", "title": "Values made by constructors", "statement": "A break or video made with new is written in the short form with its times and read back as the same event (a video with quotes around the path if it needs them); it can be written exactly if the times fit after taking off 24 in versions 3 and 4. Sprite::new refuses exactly the paths that start with a slash (which are accepted when read); a sprite made with it, with an origin made from its type, is read back. A path that is set several times is the one set last. A decimal made from an integer is what the text of the integer is read as. A decimal made from text (new_from_str) is what its text is read as only if the text is not a number; try_make_decimal always gives what the text is read as, and fails without effect exactly for text that is not a number. From version 5 on a hit object with position and time given as text is read back as the object after try_make_decimal; in versions 3 and 4 a numeric time given as text comes back 24 later.", "quantifier": "all times, paths, positions, integers and texts, all versions", "why_tests_cant": "all texts and integers; round trips of constructed values in all versions", "anchors": ["src/osu_file/events/normal_event/mod.rs: Video::new, Break::new", "src/osu_file/events/storyboard/sprites.rs: Sprite::new, From<OriginType> for Origin", "src/osu_file/types.rs: Decimal::new_from_str, try_make_decimal, From<i32>"]}
{"id": "C71", "title": "An edit changes only what it touches", "statement": "Two file values that differ at most in one section have texts that differ at most in the block of that section, and the second can be written exactly if that section can. Two file texts that differ in the content of one section: if the first is accepted, the second is accepted exactly if that content is accepted and not empty, and the values differ at most in that section. If a section is left out of a text that is accepted, the text is accepted and only that section is missing from the value; if a section that is not there is put into it, anywhere, the text is accepted exactly if the content of the section is accepted and not empty, and nothing else changes. Lines put after a file that ends with hit objects (timing points, events) are further hit objects (timing points, events) and change nothing else; the file is accepted exactly if those lines are on their own (no line may begin with `[`, and for events the first may not be indented). Exchanging one timing point, hit object, colour or field changes only its line in the text of the section.", "quantifier": "all file values and texts, all sections changed, left out or put in, all lines appended, all versions", "why_tests_cant": "pairs of arbitrary files and arbitrary edits", "anchors": ["src/osu_file/mod.rs: OsuFile Display, FromStr", "src/osu_file/{timingpoints,hitobjects,colours,events}/mod.rs: to_string, from_str", "src/helper/macros.rs: general_section!"]}
{"id": "C72", "title": "Different values have different texts", "statement": "Writing is one-to-one: two writable lists of timing points have the same text exactly if they agree in all the version writes, events (and storyboards) exactly if they differ only in quotes that paths get anyway, hit objects exactly if they agree in all the version writes (the converse not for mania holds without hit sample); colours, Metadata and Difficulty sections, and whole files that can be written in full, only if they are equal; General and Editor sections only if they agree in all fields that exist in the version. The text of any file value tells its version. (False for decimals that are texts of numbers.)", "quantifier": "all pairs of values, all versions", "why_tests_cant": "all pairs of values", "anchors": ["all to_string and Display implementations"]}
{"id": "C73", "title": "Where blanks count", "statement": "In key/value sections blanks and tabs after a colon and white space between entries change neither the values nor which error is reported (blanks after a colon not even its line); keys have no white space, so the first line is not indented and no blank precedes a colon; an accepted value has none unless the field holds text or a decimal, which then is kept as text, or the version lacks the field; the ids of Metadata panic on white space. In timing point lines from version 4 on and in hit object lines white space makes times, positions, beat length and slider length text and is refused in meter, sample set, sample index, volume, flags, object type, hit sound and number of slides. Blanks after a last comma give a circle the default hit sample.", "quantifier": "all texts, all versions", "why_tests_cant": "blanks may stand anywhere in a text", "anchors": ["src/parsers.rs", "src/helper/macros.rs", "src/osu_file/timingpoints/mod.rs", "src/osu_file/hitobjects/mod.rs"]}
{"id": "C74", "title": "What the text of an error in a key/value section says", "statement": "The text of the error for a refused General, Editor, Metadata or Difficulty section, and its line, are those of the first line without a colon if there is one, otherwise of the first entry whose key is repeated or does not exist or whose value is refused. Of a refused number it is said that it is too large or too small as soon as its leading digits are, whatever follows, otherwise that a character is no digit, or that it is empty; of a refused flag, mode, countdown, sample set, overlay position or list of bookmarks, that its value is none of those that exist, after any complaint about the number. No value of Difficulty is refused, and none of Metadata with an error.", "quantifier": "all texts, all versions", "why_tests_cant": "all combinations of faults; tests look at a few texts", "anchors": ["src/osu_file/general/error.rs", "src/osu_file/editor/error.rs", "src/osu_file/metadata/error.rs", "src/osu_file/difficulty/error.rs", "src/helper/mod.rs"]}
{"id": "C75", "title": "When loading and saving a file goes unnoticed by osu_str_eq", "statement": "A beatmap text in which each section header stands on a line of its own is accepted and saved again. The two texts are equal under osu_str_eq exactly if the version is written without plus sign and leading zeros, the sections stand in the order in which the library writes them, every section is written in this version, and the content of each one is equal to what is written for it. For General and Editor that is so exactly if every entry is written in this version and its value is, up to blanks, the one written; for Metadata, if the two ids are written without plus sign and leading zeros; for Difficulty, if each number is written as the library prints it; for Colours, if every line is, up to blanks, the one written; for sections without colons, if the trimmed lines are those written, in the same order.", "quantifier": "all accepted texts without byte order marks next to blanks whose lines inside sections do not look like headers and, in the key/value sections, with line feeds or carriage return and line feed as line ends", "why_tests_cant": "the tests check this for a few files of their own; it fails for texts such as `BeatmapID:007` or sections in another order, which no sample shows to be all", "anchors": ["src/lib.rs: osu_str_eq", "src/osu_file/mod.rs: OsuFile::from_str, to_string", "src/osu_file/general/mod.rs", "src/osu_file/metadata/mod.rs", "src/osu_file/colours/mod.rs"]}
{"id": "C76", "title": "Which errors have a cause", "statement": "The error of a refused beatmap text has a cause (std::error::Error::source) exactly if the version is at least 5 and, after sections that are read, the first fault of a General section is a Countdown that is no unsigned number; the cause then says what is wrong with the number, which the error itself does not. For the values of one key of General the texts of error and cause together determine the error. No error of a storyboard file and no error of another section has a cause.", "quantifier": "all texts, all errors", "why_tests_cant": "walking the chain of causes is what error reporters do; tests look at no cause at all, and that there is only one place with a cause is a statement about all errors", "anchors": ["src/osu_file/types.rs:46-50", "src/osu_file/general/error.rs:66-67", "src/osu_file/mod.rs:322-398", "src/osu_file/osb/error.rs"]}
{"id": "C77", "title": "Which file paths are equal, and what equal paths share", "statement": "Two file paths compare equal exactly if one can be turned into the other by adding and leaving out slashes next to other slashes, single dots between slashes or at the end, and slashes at the end; this is an equivalence, and each path is equal to exactly one path without such parts. Equal paths give the same frame_file_names, and Sprite::new accepts both or neither. Equal objects need not have equal texts: the spelling is kept, and one of two equal paths can be written with quotes and the other without.", "quantifier": "all paths, all frame counts", "why_tests_cant": "which of infinitely many spellings are identified, and that the library's functions do not distinguish them, cannot be seen from samples; the tests compare values with == and texts separately", "anchors": ["src/osu_file/types.rs:200-250", "src/osu_file/events/storyboard/sprites.rs:235-289", "src/osu_file/general/mod.rs:24"]}
{"id": "C78", "title": "The whole text shown for a refused file", "statement": "The whole text shown for a beatmap or storyboard file that is refused, without and with the offending line, is determined by the file: `Line`, the number of the line, and what is said of the first of these that applies: no version line, a version that is not 3 to 14, a line before the sections that is neither blank nor a comment, a repeated section, an unknown section, or the first fault of the first section with one (its own first faulty line or entry, with the words of C66 and C74). In storyboard files the references to variables in a command line are replaced first, but its indentation counts as written.", "quantifier": "all texts, all versions", "why_tests_cant": "all faults at all places of a file and all combinations of them; tests look at single lines", "anchors": ["src/osu_file/mod.rs: OsuFile::from_str, ParseError", "src/osu_file/osb/mod.rs", "src/osu_file/osb/error.rs", "src/osu_file/types.rs:53-63,156-163", "src/osu_file/events/mod.rs:118-304"]}
{"id": "C79", "title": "The fields of the key/value sections", "statement": "Which keys the General, Editor, Metadata and Difficulty sections have, and in which order they are written. A text is read as such a section exactly when its entries name only these keys, none twice, and each value is one of its field's kind: any text; an integer numeral in the range of 32 bits; a numeral of 0 or 1; any text for a number, which is kept as text if it is not one; a comma separated list of integers or nothing; words between single blanks; the number of a countdown or game mode; the name of a sample set or overlay position. The field then holds that value, or nothing if the version does not have it (countdown in versions 3 and 4, sample set in version 3, overlay position in 3 to 13, game modes by their first version); fields that are not named hold nothing. The written text has exactly one line for each field that holds something and is written in the version (AudioHash up to 13, EditorBookmarks and EditorDistanceSpacing up to 5, CurrentTime only in 10): the name, a colon, a blank in General and Editor (in Difficulty only in versions 3 and 4 and only before the texts `SliderTickRate` and `SliderMultipler`), and the value in its usual spelling.", "quantifier": "all texts, all sections, all versions", "why_tests_cant": "every combination of keys, values and versions, in both directions; the tests read a few complete sections in version 14", "anchors": ["src/osu_file/general/mod.rs", "src/osu_file/editor/mod.rs", "src/osu_file/metadata/mod.rs", "src/osu_file/difficulty/mod.rs", "src/helper/macros.rs:88-235"]}
{"id": "C80", "title": "Names, letters and numbers of the enumerations", "statement": "Which text stands for which value. Curve types, parameters, storyboard layers, loop types, and the sample sets and additions of triggers are read exactly from their letters or names, and written with them. Easings, origins, sample sets, sample indices, volumes of hit objects, hit sounds, edge sets, curve points, and the layers and origins of legacy events and audio samples are read from any numeral of their number (numbers without a name are kept where the library has a value for them, and refused otherwise), and are written in its usual spelling. The number written for the type of a hit object is 1, 2, 8 or 128 for its kind, plus 4 for a new combo, plus 16 times the colours skipped.", "quantifier": "all texts, all values", "why_tests_cant": "a name or number changed in the same way for reading and writing passes every round trip; every numeral of every number has to be looked at", "anchors": ["src/osu_file/events/storyboard/types.rs", "src/osu_file/events/storyboard/sprites.rs", "src/osu_file/events/normal_event/types.rs", "src/osu_file/events/audio_sample/mod.rs", "src/osu_file/hitobjects/types.rs", "src/osu_file/hitobjects/mod.rs:100-118", "src/osu_file/timingpoints/types.rs"]}
{"id": "C81", "title": "The text written for each line", "statement": "The text written for a timing point, hit object, command, event, colour or variable, and for a whole section of them, is exactly the one its fields say, column by column for the version: which columns there are, their order and separators, integers in their usual spelling, numbers as the decimal library shows them or as the text kept, times lowered by 24 in versions 3 and 4 (with no text if that is impossible), paths in quotes if they have a blank and no quotes, commands depth first below their event with one blank per level, and no colour transformations in version 14.", "quantifier": "all values, all versions", "why_tests_cant": "all combinations of present and missing fields in all versions; reading back only shows that nothing is lost, not that the written line is the one other programs expect", "anchors": ["src/osu_file/timingpoints/mod.rs: to_string", "src/osu_file/hitobjects/mod.rs: to_string", "src/osu_file/events/mod.rs:307-443", "src/osu_file/events/normal_event/mod.rs", "src/osu_file/events/storyboard/cmds/mod.rs:66-283", "src/osu_file/colours/mod.rs:173-187", "src/osu_file/osb/types.rs"]}
{"id": "C82", "title": "Saving under another version", "statement": "A file that was loaded from any text, has its version number set to any version from 3 to 14 and is saved, is read back as the same value with the new number exactly if (when no line of the new text ends in a carriage return): every section has something to write; every General and Editor field exists in the new version; colours go to version 5 or later and colour transformations to version 13 or earlier; paths need no quotes; no section of timing points or hit objects begins with a blank; sample indices fit into i32; a beat length from version 3 has no comma; a timing point from version 5 that goes to a later version does not end after its uninherited flag; the timing points have the defaults of what versions 3 and 4 leave out; the hit samples are ones the new version writes; a slider that goes to version 3 has a position without bars and carriage returns; and the times that versions 3 and 4 move by 24 can be moved and are read back (the latter is true for 96 bit decimals when they were moved up). A file for which this holds is always written, and if the loaded text had no stray carriage returns its new text is read back. A higher number can keep more than the file's own version, and it can make the file unreadable.", "quantifier": "all accepted texts, all new versions from 3 to 14", "why_tests_cant": "all values a text of any of 12 versions can be loaded as, times all target versions", "anchors": ["src/osu_file/mod.rs: OsuFile::from_str, Display for OsuFile, pub version", "src/osu_file/types.rs: VersionedToString"]}
{"id": "C83", "title": "What the comparison of texts says about the loaded files", "statement": "If two beatmap texts are both accepted and `osu_str_eq` does not tell them apart, the loaded files have the same version and the same sections, and every value is the same up to blanks: numbers, flags, names and colours are equal, while texts, paths, comments and decimals come from texts that differ only in blanks. Timing points, hit objects and events (with their commands) come in the same order unless every line of their section has a colon; then, and for colours, only the order can differ. More does not hold: blanks inside a title, the order of hit objects with hit samples, and whether a command is inside a loop can differ between texts that compare as equal.", "quantifier": "all pairs of texts whose headers stand on lines of their own and in which each carriage return is followed by a line feed", "why_tests_cant": "relates the comparison to the parsers of all eight sections over all pairs of texts", "anchors": ["src/lib.rs: osu_str_eq", "src/osu_file/mod.rs: OsuFile::from_str", "src/osu_file/{general,editor,metadata,difficulty,events,timingpoints,colours,hitobjects}/mod.rs: from_str"]}
{"id": "C84", "title": "Which loaded files are equal", "statement": "Two loaded beatmaps (or storyboards) compare as equal with `==` exactly if they become the same once every number is put into one spelling and every path into one spelling; nothing else is ignored. So `==` is an equivalence, putting numbers and paths into other spellings of the same value never changes a comparison, and each file has exactly one equal file with normalized numbers and shortest paths. Equal files agree in version, metadata, colours, which sections there are and how many events, timing points and hit objects; when they were loaded (version 5 or later), the texts they are saved to differ at most in the spelling of numbers and paths between separators; so do the texts of equal storyboards without variables, while with variables they need not, because a variable replaces its own spelling of a number only. Equal files and storyboards that load back as they were stay equal through saving and loading. In general they do not: `a b` and `a b/` are equal paths that stop being equal once saved with quotes; and spellings of an event type (`2` or `Break`) and numbers kept as text are compared as text.", "quantifier": "all pairs of beatmaps and storyboards, all spellings of numbers and paths", "why_tests_cant": "compares derived equality of every type with the written texts, over all pairs of values", "anchors": ["src/osu_file/mod.rs: OsuFile (derive PartialEq)", "src/osu_file/osb/mod.rs: Osb (derive PartialEq)", "src/osu_file/types.rs: Decimal (derive PartialEq)", "src/osu_file/events/**: derive PartialEq"]}
{"id": "C85", "title": "What is left of a file saved under another version", "statement": "A loaded beatmap saved under any version w from 3 to 14 (its version number set to w, its sections left as they are) and loaded again is the beatmap with: the fields of General and Editor that exist in w; the events without colour transformations for version 14, with quotes around paths that need them; timing points with the default meter, sample set and index for version 3 and the default volume, uninherited flag and effects for versions 3 and 4; no colours for versions 3 and 4; hit samples left out up to version 9 (version 3 gives circles the default sample, and hold notes have one always) and cut to sets and index for 10 and 11; and everything else unchanged. This holds exactly if w writes something of each section that is there, no first line of a section of timing points or hit objects begins with a blank, times and sample indices fit, and the four format changes (beat lengths with commas from version 3, flags without effects from version 5, positions with `|` for sliders in version 3, file names of hit samples that are blanks) do not occur; for w at or above the file's version nothing else is needed. What is left is saved to the same text again, except that a game mode that does not exist in w is still written. The file keeps everything exactly if what is left is the whole.", "quantifier": "all beatmap texts that load, all pairs of versions 3-14", "why_tests_cant": "quantifies over all loadable texts and all target versions; the value read is compared with an independently stated one", "anchors": ["src/osu_file/mod.rs: OsuFile::from_str, Display, version", "src/osu_file/general/**, editor/**, events/**, timingpoints/**, colours/**, hitobjects/**: to_string_v"]}
{"id": "C86", "title": "Exactly which values cannot be saved", "statement": "Printing a beatmap (`to_string`) panics exactly if its version is 3 or 4 and it contains a time from which the offset of 24 of these versions cannot be taken: a time of a video, a break or a colour transformation among the lowest 24 numbers of 32 bits, or a number as the time of a timing point or hit object, or as the end of a spinner or hold note, from which the decimal library cannot take 24. From version 5 on every value can be printed, whatever its commands, however deep they are nested. `osb_to_string` never panics and gives a text exactly if there is a storyboard and the version is at least 14. A beatmap as it was loaded can always be saved again; one whose version number is set to 3 or 4 afterwards possibly not.", "quantifier": "all beatmap values, all versions; all texts that load", "why_tests_cant": "quantifies over all values that can be built; the failing values are a few of the 2^32 times, which no test happens to use", "anchors": ["src/osu_file/mod.rs: Display for OsuFile, osb_to_string", "src/osu_file/events/normal_event/mod.rs: time_to_string", "src/osu_file/timingpoints/mod.rs, hitobjects/mod.rs: to_string_v, OLD_VERSION_TIME_OFFSET"]}
{"id": "C87", "title": "Beatmaps in a build without overflow checks", "statement": "In a build without overflow checks (cargo's release profile), reading and saving a beatmap has the same outcome as with them wherever that does not panic. Event lines are read as in version 5, then in versions 3 and 4 the times of videos, breaks and colour transformations are moved by 24, going round at the ends of the 32 bit numbers; they are written with the times moved back the same way, so every time comes back. A text is accepted exactly if it is a header with a known version, blank lines and comments, and sections with different known names and accepted contents, of which the last may be empty; otherwise the outcome is that of the first section that is not read, with the same line numbers as with the checks. Reading panics exactly if reading the content of such a section panics (a late time no longer does, nor does an empty section), saving exactly if 24 cannot be taken from a decimal time in version 3 or 4. But a late time of an old file silently becomes one long before the start.", "quantifier": "all texts, all beatmap values, all versions", "why_tests_cant": "quantifies over all texts; tests run with overflow checks, users' programs mostly without", "anchors": ["src/osu_file/mod.rs: OsuFile::from_str (line_number += ... - 1), Display", "src/osu_file/events/normal_event/parsers.rs: start_time_offset, end_time", "src/osu_file/events/normal_event/mod.rs: time_to_string"]}
{"id": "C88", "title": "Lists of continuing values in a build without overflow checks", "statement": "In a build without overflow checks the edits of the continuing values of move, scale and colour commands never panic and agree with the checked build wherever that does not panic. Pushing an entry completes an incomplete last entry from the entry before it or from the start values if there is none, as the code's comment promises, so that for pairs only the last entry is ever incomplete; for colours exactly if the last entry did not lack both green and blue and the new entry does not have blue without green. Replacing an entry of an empty list reports an error: that parts are missing, or that there is no such entry.", "quantifier": "all lists, entries and 64 bit positions", "why_tests_cant": "invariant over all lists and edits; tests run with overflow checks", "anchors": ["src/osu_file/events/storyboard/cmds/types.rs: push_continuing_fields, set_continuing_fields, push_continuing_rgbs, set_continuing_rgbs"]}
{"id": "C89", "title": "The error of a value read on its own", "statement": "A single value given as text to its own parser is refused with an error that is determined exactly. Sample sets, sample indices, hit sounds, effects and volumes of timing points give the error of the integer of their size (for the sample set of a hit object it is the error inside, see C90). An origin is refused only if it is no origin name, with the error of the integer. Legacy origins above 9, legacy layers above 5, audio sample volumes above 100 are refused as unknown, hit sample volumes above 100 as too high, never as too low. A hit sample reports its first unreadable field. A trigger type reports whether the type, the number of words or a word of the hit sound is wrong. A colour reports the first component that is missing or not a byte. Names and flags report that the name is unknown, the number unreadable or not 0 or 1. The natural claim that each part of a pair is named by its own error is false: an unreadable second item of an edge set is reported as the first item, the error for the second item is never produced, nor is the missing separator of a hit sample.", "quantifier": "all texts", "why_tests_cant": "the error of every refused text; examples show single texts only", "anchors": ["src/osu_file/hitobjects/types.rs: VersionedFromStr of EdgeSet, CurvePoint, SampleSet, Volume, HitSound, CurveType, SampleIndex, HitSample", "src/osu_file/timingpoints/types.rs: VersionedFromStr of Effects, SampleIndex, SampleSet, Volume", "src/osu_file/events/normal_event/types.rs: VersionedFromStr of OriginTypeLegacy, LayerLegacy", "src/osu_file/events/audio_sample/mod.rs: VersionedFromStr of Volume", "src/osu_file/events/storyboard/types.rs: VersionedFromStr of TriggerType", "src/osu_file/events/storyboard/sprites.rs: VersionedFromStr of Origin, Layer, LoopType", "src/osu_file/colours/types.rs: VersionedFromStr of Rgb", "src/helper/mod.rs: parse_zero_one_bool"]}
{"id": "C90", "title": "The texts of errors of single values and setters", "statement": "The text shown for a refused single value, and for a refused call of a setter or checked constructor, is determined exactly, and it identifies the error among those of its kind. Values that are numbers show the text of the number or their limit; a sample set of a hit object shows a text of its own and only its cause tells what is wrong with the number; no other value gives a cause. Unknown names show the kind of the value. Combo skips above 7, hit sample volumes of 0 or above 100, audio sample volumes above 100, numbers that are no origin and paths from the root are refused with their text, as are lists of continuing fields and colours, where the text is that of the first wrong entry. The natural claim that these texts are true of the call is false: the volume of an audio sample is said to be in 1 ~ 100 although 0 is accepted; an entry with blue but no green is said to lack blue and not to be the last even if it is the only one; an incomplete entry at an index that does not exist is said to be incomplete instead of out of bounds; the path given as the example of a refused path is accepted (on Unix).", "quantifier": "all texts, numbers, lists and indices", "why_tests_cant": "the text for every refused argument; no finite set of examples covers the arguments", "anchors": ["src/osu_file/hitobjects/error.rs", "src/osu_file/events/storyboard/error.rs", "src/osu_file/events/storyboard/cmds/error.rs", "src/osu_file/events/audio_sample/error.rs", "src/osu_file/events/normal_event/error.rs: ParseOriginTypeLegacyError, ParseLayerLegacyError", "src/osu_file/types.rs: InvalidRepr", "src/osu_file/events/storyboard/cmds/types.rs: ContinuingFields, Colours", "src/osu_file/hitobjects/types.rs: ComboSkipCount, Volume", "src/osu_file/events/audio_sample/mod.rs: Volume"]}
{"id": "C91", "title": "File paths in a build for Windows", "statement": "On Windows, for paths that do not start with two separators: two file paths compare equal exactly if one can be turned into the other by exchanging slashes and backslashes, adding and leaving out slashes next to other slashes, single dots between slashes or at the end, and slashes at the end (except that after a drive), and changing the case of the letter of the drive. frame_file_names gives the names made of the file name after the last separator or the drive, and panics exactly if there is none; Sprite::new refuses exactly the paths that start with a drive and a separator; equal paths share both. Paths without drives that are equal elsewhere are equal on Windows, and for paths without backslashes the converse holds. The names of frames are the same on both systems exactly if the path has the same file name on both. It is false that a storyboard gives the same names on both systems (with backslashes, as is usual, only Windows leaves out the directory), that Sprite::new refuses the same paths, that it refuses all paths from the root, and that paths of the same file are equal (the case of names counts).", "quantifier": "all paths that do not start with two separators, all frame counts", "why_tests_cant": "the tests run on one system; which of infinitely many spellings are identified on the other cannot be seen from samples", "anchors": ["src/osu_file/types.rs:200-250", "src/osu_file/events/storyboard/sprites.rs: Animation::frame_file_names, Sprite::new", "src/osu_file/general/mod.rs:24"]}
{"id": "C92", "title": "The order of volumes and combo skips", "statement": "Volumes of hit samples compare like the numbers they are read from and written as, however they were made and changed by the setters; so do volumes of timing points; combo skips compare like the numbers they are made from; values that compare as equal are equal. It is false that the greater volume of a hit sample is the louder one: the one that stands for the volume of the timing point is below all others.", "quantifier": "all volumes and combo skips, all texts, all sequences of setter calls", "why_tests_cant": "all pairs of values, and all ways to make them", "anchors": ["src/osu_file/hitobjects/types.rs:22-23, 200-202", "src/osu_file/timingpoints/types.rs:204-205"]}
{"id": "C93", "title": "Builds with a smaller usize", "statement": "In a build whose usize has 16 or 32 bits a line of a hit object, and a section of them, is accepted exactly if a 64 bit build accepts it and the numbers of its sample sets, sample index and edge sets fit the usize, with the same value; it panics on exactly the same lines; the error is that of a missing hit sample if an edge set does not fit, else that of an invalid hit sample, and names the first line that does not fit or is refused by all builds; an object comes back from its own text exactly if it does on 64 bits and fits. Trigger types and audio samples are read alike by all builds, as are countdowns, modes and the origins and layers of events, but for the cause given for numbers beyond the usize. A file is opened exactly if a 64 bit build opens it and its hit objects fit; wherever the outcomes differ the smaller build gives an error, in the hit objects or for a countdown or mode that is too large. Storyboard files are read alike. It is false that all builds open the same files.", "quantifier": "all texts, all versions, all sizes of usize from 16 to 64 bits", "why_tests_cant": "tests run on one target; all texts and all targets", "anchors": ["src/osu_file/hitobjects/types.rs:143-198, 441-479", "src/osu_file/general/types.rs:22-58, 144-178", "src/osu_file/events/normal_event/types.rs:48, 89", "src/osu_file/events/audio_sample/mod.rs:176", "src/osu_file/events/storyboard/types.rs:85-91"]}
{"id": "C94", "title": "Equal files have equal hashes", "statement": "Two files, storyboards or events that compare as equal with `==` have the same hash with every hasher, so that they can be keys of a map: numbers are hashed by their value and paths by their parts. What is hashed also tells all values apart that are not equal, also many files one after the other, with one exception: whether a path starts with a slash is not hashed. So timing points and hit objects hash the same exactly if they are equal, files exactly if they are equal once the slash at the start of each path is left out. It is false that files which are not equal are always told apart.", "quantifier": "all values of all the types, all hashers", "why_tests_cant": "all pairs of equal values, which are spelled in unboundedly many ways, and all hashers", "anchors": ["src/osu_file/mod.rs:39-71", "src/helper/macros.rs:3, 105", "src/osu_file/types.rs:19, 201, 275", "src/osu_file/events/mod.rs:28, 329"]}
{"id": "C95", "title": "How many things a text gives, and how deep commands nest", "statement": "A text read as timing points, hit objects or colours gives exactly one for each line that is not blank; one read as events gives exactly one event or command, at whatever depth, for each such line, and has a command at depth n exactly if some line starts with n blanks or underscores. A text read as General, Editor, Metadata or Difficulty gives at most one field for each row, where a carriage return alone ends a row too. So the fields, events, commands, timing points, colours and hit objects of a loaded file together are always fewer than the rows of its text (and than its lines that are not blank, if carriage returns stand before line feeds only), and a file can have a command at depth n only if a line of it is indented by n; likewise for storyboards. It is false that a file never has more fields than lines.", "quantifier": "all texts, versions and lists of variables", "why_tests_cant": "all texts; a bound on what a loaded value can hold cannot be had from samples", "anchors": ["src/osu_file/mod.rs:167-320", "src/osu_file/events/mod.rs:119-301", "src/osu_file/timingpoints/mod.rs:27-59", "src/osu_file/hitobjects/mod.rs:33-52", "src/osu_file/colours/mod.rs:24-49", "src/parsers.rs:45-58"]}
{"id": "C96", "title": "A file that is cut short", "statement": "If a text is read as a file and is cut at the end of any line (an interrupted download or copy), then what is left is rejected for its version line if only blanks are left, makes loading panic if the last line left that is not blank ends with the header of a section, and otherwise is read: the version is kept, at most one section holds a part of what it held (some of the fields with the same values; the first timing points, colours or hit objects; the first events, the last of them perhaps with its first commands only), every other section is whole or missing, and a section is missing only if its header is in the lines that were cut off. A storyboard that is cut at the end of a line is always read, to a part in the same sense. It is false that a cut file is always read, and in the middle of a line a file can be cut to one that is read with another value. Carriage returns are taken to stand before line feeds only.", "quantifier": "all texts that are read, cut at any line feed, and all versions", "why_tests_cant": "all files and all places to cut them", "anchors": ["src/osu_file/mod.rs:109-320", "src/osu_file/osb/mod.rs:19-145", "src/osu_file/events/mod.rs:119-301", "src/osu_file/timingpoints/mod.rs:27-59", "src/osu_file/hitobjects/mod.rs:33-52", "src/osu_file/colours/mod.rs:24-49", "src/parsers.rs:66-120"]}
{"id": "C97", "title": "How many lines a saved file has", "statement": "The text that is written for a loaded file has, apart from blank lines, exactly one line for the version, one for each section the file has, and one for each field, event, command, timing point, colour and hit object that the version of the file writes: nothing is written over several lines, two things never share a line, and nothing else is written. Everything the file holds is written exactly if it has no AudioHash in version 14, no EditorBookmarks and no EditorDistanceSpacing from version 6 on, no CurrentTime in another version than 10 and no colour transformation in version 14. The text of a loaded storyboard has one line for each of its sections, variables, events and commands in the same way, whatever the values of its variables are. If the headers in the loaded text stand on lines of their own, the saved text has no more lines than the loaded text has rows; it is false that this holds for every text, as a header that shares its line gets a line of its own.", "quantifier": "all texts that are read as a file and can be written, and all versions", "why_tests_cant": "all files with any number of entries, values that can hold line breaks and commands nested to any depth", "anchors": ["src/osu_file/mod.rs:109-160", "src/osu_file/general/mod.rs:24-158", "src/osu_file/editor/mod.rs:40-83", "src/osu_file/events/mod.rs:302-380", "src/helper/macros.rs:100-200"]}
{"id": "C98", "title": "Saving invents no characters", "statement": "Every character of the text that is written for a loaded file or a loaded storyboard (with or without variables) stands in the text it was loaded from, is a printable ASCII character (code 32 to 126), or is a line feed. So a file in ASCII is saved in ASCII, and no carriage return, byte order mark, tab, NUL or replacement character is ever added. It is false that only characters of the loaded text are written: quotes are put around paths with spaces.", "quantifier": "all texts that are read as a file or as a storyboard and can be written, all characters and all versions", "why_tests_cant": "all Unicode texts, in every place of every section", "anchors": ["src/osu_file/mod.rs:109-160", "src/osu_file/osb/mod.rs:113-144", "src/osu_file/events/mod.rs:302-380", "src/osu_file/events/storyboard/cmds/mod.rs:73-282", "src/helper/macros.rs:100-200"]}
{"id": "C99", "title": "Changing the version in the header of a file", "statement": "For every section and every pair of known versions v, w it is known whether each text of the section that is accepted in version v is also readable in version w: always for Editor, Metadata, Difficulty, Events and HitObjects; for General exactly if w does not reach 4, 5 or 14 where v does not; for Colours exactly if w is 3 or 4, or v is 5 or later; for TimingPoints exactly if w is v or 3, or w is at least 5 and v at least 6. For all other pairs a text is accepted in v and refused in w. Where it is readable it is accepted, unless a time overflows, and that happens only when 3 or 4 takes the place of 5 or later. So a file is still accepted with an older version than its own in the header, unless this is 4 (or a time overflows in 3), and a file of version 6 or later with any version from 6 to 13. It is false that every older version will do.", "quantifier": "all section texts, all pairs of versions, all files", "why_tests_cant": "all texts and all 144 pairs of versions, for each kind of section", "anchors": ["src/osu_file/timingpoints/mod.rs:265-444", "src/osu_file/general/types.rs:1-237", "src/osu_file/colours/mod.rs:24-49", "src/osu_file/mod.rs:165-330"]}
{"id": "C100", "title": "Lines taken out, repeated or put in another order", "statement": "If a text of timing points, hit objects or colours is accepted, so is every text made of its lines, in any order and each any number of times: it gives no other items, a sublist in the same order if lines are only taken out, and a permutation if they are only put in another order. If a text of keys and values is accepted, so is every text made of its entries without repeating one, in any order and with any line breaks between them: the fields that are set have the same values, and none is missing if no entry is. A text of events (also with variables) put together from parts that do not begin with an indented line is accepted exactly if each part is, and gives their events one after the other; so such parts can be taken out, repeated and put in another order likewise. Events and commands can also be taken out one by one, each with the deeper lines that follow it: each line that is left gives the same event or command as before, at the same depth. The same holds for such a section in a file, if something is left of it, and all else in the file stays. It is false that any line of a text of events can be taken out or moved, and that an entry can be repeated.", "quantifier": "all texts, all selections and orders of their lines, entries or parts, all versions", "why_tests_cant": "all ways to sort and filter the lines of a text", "anchors": ["src/osu_file/timingpoints/mod.rs:27-59", "src/osu_file/hitobjects/mod.rs:33-56", "src/osu_file/colours/mod.rs:24-49", "src/osu_file/events/mod.rs:33-180", "src/parsers.rs:45-58"]}
