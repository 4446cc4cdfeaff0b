STATUS = {
}
NOTE = {
 "C15": "C15_false gives the timing points (sample index above i32::MAX) for which it fails; the round trip theorem excludes exactly what the version cannot write.",
 "C20": "C20_false* give the objects for which it fails; C20_text_stable has hold notes without hit sample as its only exception.",
 "C27": "C27_unwritable shows that the restriction to the parser's form is needed.",
 "C31": "The constructor, parsing, push and set; panics characterised exactly.",
 "C32": "C32_push_false gives the witness for the push that breaks it; C32_push is the exact condition.",
 "C33": "C33_false and C33_ambiguous are the witnesses that the condition is needed.",
 "C54": "C54_false is the witness that the reported indentation can be unacceptable; C54_report, C54_usable and C54_two_less say what is reported.",
 "C08": "C08_empty_tags_not_read_back records the one list (the default) that is not read back.",
 "C34": "C34_path_false and C34_colour_transformation_lost are the witnesses for the two exceptions.",
 "C35": "C35_round_trip holds for all writable events (quotes become part of a path with blanks), C35_round_trip_plain is the exact round trip.",
 "C36": "C36_false_* are concrete texts for each kind of panic; C36_exact is the characterisation.",
 "C10": "C10_false is a concrete text that panics; C10_exact is the characterisation.",
 "C41": "C41_false_empty_section is the witness that empty sections do not round trip; FileWritable is a sufficient condition, and C41_iff says exactly which file values survive when no line of the text ends in a carriage return (FileSurvives).",
 "C42": "C42_file_false_* are concrete files for which it fails without the extra conditions; C42_file_value says which value is read the second time.",
 "C46": "C46_content_line and C46_header_line are the exact equations, C46_content_position and C46_header_position say which line of the text is meant, C46_right_line is the case without deviation, C46_false_* are concrete deviations.",
 "C47": "C47_false_* are concrete panics; C47_exact is the characterisation.",
 "C53": "C53_false_* are concrete texts of which a part is ignored; C53_exact is the characterisation.",
 "C52": "C52_false is the witness that the blank depends on the value.",
 "C37": "C37_false_equals is a name that comes back as another one.",
 "C38": "C38_text and C38_read are the exact effects of printing and reading; C38_false_* show that each condition of C38_round_trip is needed; C38_iff is exact for texts in which no line ends in a carriage return.",
 "C39": "C39_false_empty and C39_false_order are the witnesses for the exceptions; C39_stable is re-saving; C39_iff is exact for texts in which no line ends in a carriage return.",
 "C55": "C55_exact, C55_rejected and C55_panic together give every outcome.",
 "C48": "C48_exact is the exact trimmed form; C48_false_bom is the witness for the exception.",
 "C49": "C49_exact is the characterisation; C49_false_* are pairs of different files that are equal.",
 "C57": "C57_false_prefix is the witness for the exception in parentheses.",
 "C59": "C59_false_* are lines whose error names the wrong column; C59_never lists errors that never occur.",
 "C61": "C61_false is an animation that is read and panics; C61_quotes is the remark in parentheses. Unix paths.",
 "C62": "C62_false_exact is a multiplier that does not come back exactly, C62_false_zero an accepted line whose BPM panics. Division and multiplication of rust_decimal are assumed to round as class DecArith says.",
 "C63": "C63_flag_alone and C63_effects_alone are the unreadable cases.",
 "C64": "C64_false_tags and C64_false_empty_list are the two exceptions.",
 "C65": "C65_equal is the exact condition, C65_false a concrete slider.",
 "C66": "C66_false_distinct and C66_false_metadata are the exceptions; the texts of std's ParseIntError are assumed.",
 "C67": "C67_read and C67_write are for all texts and values; C67_read_exact and C67_write_exact add that the cuts are needed (with the concrete decimals).",
 "C68": "C68_false_cr and C68_false_crcr are the two remarks at the end.",
 "C69": "C69_false_indented shows the condition on events is needed. C69_fields wants a first text with at least one entry and nothing left over, and a second text not starting with a blank.",
 "C70": "C70_false_sprite and C70_false_old_time are the two oddities named in the statement. Absolute paths as on Unix.",
 "C71": "LastSection, SameBut in Spec/Edits; texts with LF line endings (C68 carries it over to CRLF), without a final line feed.",
 "C72": "C72_false_text and C72_false_old show that the hypotheses are needed.",
 "C73": "The statements on decimals suppose that the decimal type takes no white space (DecNoWs; rust_decimal does not, and Dec96 is shown to).",
 "C74": "The texts of ParseIntError are those of the standard library (assumed).",
 "C75": "Sections with colons in some lines of timing points, events and hit objects are covered by the file theorem through the comparison of lines itself.",
 "C76": "What thiserror derives for `#[from]` and `transparent` is assumed.",
 "C77": "PathBuf equality by components (std, Unix) is assumed; elsewhere in the model equality of values is equality of spellings, which is finer.",
 "C78": "The number is that of the line as counted by the library; C46 says when it is the line in the text.",
 "C79": "The tables of names, kinds and versions are in Spec/Fields.lean. The blank in Difficulty depends on the value, not on the key: the macro compares the printed value with the names (macro hygiene).",
 "C80": "The tables are in Spec/Names.lean. Those of the key/value sections are in C79.",
 "C81": "The lines are lists of pieces (Spec/Writing.lean). Hit objects: those that skip at most 7 colours, which is all that can be built or read (C24). Commands: without variables; C38 says what variables change. Sections of key/value pairs are in C79, whole files in C43.",
 "C82": "`Only if` needs no loading: it holds for every file value. `SavableAs` says nothing about parts that loading guarantees.",
 "C83": "`C83_false_title`, `C83_false_order` and `C83_false_nesting` show why the claim is not equality of the loaded values.",
 "C84": "`C84_false_saved`, `C84_false_kind`, `C84_false_number` and `C84_false_text_storyboard` are the four negative parts of the claim.",
 "C85": "`C85_false` is the case of the game mode. Carriage returns: either the written text has none at ends of lines, or the loaded lines have none (`C85_save_as`).",
 "C86": "`C86_false_older` is a loaded file of version 14 that panics when saved as version 4. `C86_loaded` needs that a decimal to which 24 was added admits taking 24 away, which `C86_loaded_decimals` proves for the concrete decimals.",
 "C87": "`C87_false_late` and `C87_empty_section` are the two differences on concrete files.",
 "C89": "C89_false_second and C89_false_separator: errors that exist but are never reported.",
 "C90": "C90_false_*: texts that are not true of the call that shows them, with witnesses; the exact conditions are in the other theorems.",
 "C91": "C91_false_*: what differs between the systems and what Windows does not identify, with witnesses; the exact conditions are in the other theorems. Network, device and verbatim paths are not modelled.",
 "C92": "C92_false_louder: what the order does not say, with a witness.",
 "C93": "C93_false_same: a hit object line that a 64 bit build reads and a 32 bit build refuses.",
 "C94": "C94_false_different: loaded files that are not equal and make the same calls on the hasher.",
 "C95": "C95_false_lines: four fields on one line, separated by carriage returns, in a file of three lines. C95_file_tight: the bound is reached.",
 "C96": "C96_false_read: cut after the header of a section, loading panics. C96_false_middle: PreviewTime: 12 cut to PreviewTime: 1.",
 "C97": "C97_false: [General]Mode: 1 on one line is saved on two.",
 "C98": "C98_false: the path a b.png is saved with quotes.",
 "C99": "C99_false: a timing point with eight columns is accepted in version 14 and refused in version 4.",
 "C100": "C100_false_events: a command without the line of its event is refused. C100_false_repeated: a key may occur once only.",
}
