## Not modelled

* The external crates listed above, beyond being functions: they are assumed to terminate, not to panic and to depend on
  their argument only.
* Error messages: an error is its kind (`Err` in `Rust/Res.lean`, with the message in a comment).
* Memory use, and running time beyond termination (C01), the number of loop rounds (C102) and the size of the results (C75).
* The exponent limits of `f32`; C93 shows that they are not reached.
* `Debug`/`Clone`/`PartialEq` derivations and the hand-written `Debug` of `Print` (qw/message/print.rs:21-28), the re-exports of `lib.rs`, tests, benches and examples.
* Data of 2^63 bytes or more, which Rust slices cannot have. Theorems that need the bound state it.
* 32-bit targets, except for the offset arithmetic of C92: `usize` has 64 bits.

## Simplifications

* `while let Ok(info) = frame::Info::from_data_and_index(..)` loops share one combinator, `frameLoop`, whose body decides
  between going on and `break`.
* The cursor is kept as position and unread bytes instead of buffer and position.
* The `HashMap` entry API is `Map.get`, `Map.set` and `Map.update` on association lists; the iteration order of `Env.order`
  makes the list order unobservable.
* `sort_by` is insertion sort. Stable sorting determines the result (`stablySorted_unique`, `C44_unique`), so any stable
  sort gives the same list.
* bstr's `find`, `rfind` and `contains_str` are the naive searches for the first and last occurrence.
* Logging-free helper closures are inlined where they are used once.

## Defects of the code found on the way

The model follows the code, so the theorems describe these as they are. Each has a witness or an exact condition.

* `frame::Info` compares the frame size with the length of all the data rather than with what is left, so most truncated
  demos make the frame walkers panic (C06).
* `serverinfo` and everything that consults it panic on data shorter than 1280 bytes; `is_valid` panics on data of 1024 to
  1279 bytes that ends in the end-of-demo print (C13, C15).
* The client scan panics when less than 512 bytes follow the last client (C19).
* More than 256 clients share numbers (C20) and overwrite each other as players (C45).
* `ktxstats_string` panics when the marker is near the beginning, when a block size is below 2 or beyond the data, and when
  the last block is missing (C41).
* `match_duration` panics when the match date print follows the last end-of-match print (C37) and on recorded durations
  that are negative, too large or not a number (C39).
* The `u16` sum of pings overflows (C33), as do the `u8` flag counters (C30), the `u8` color counters (C51), team totals
  (C49) and the `u32` duration total (C35).
* On 32-bit targets a frame size close to 2^32 makes the frame walk panic or, in release builds, run for ever (C92).
* Names such as `died`, or names with spaces inside which a phrase could begin, mislead the obituary parser (C25, C84).
* Ties make `players` and `teams` depend on the hash seed (C46, C52).
* `utc_offset` accepts `++100`, `+-000` and `+0199`; the second entries for AST and LHST are dead (C53, C54).
* `matchdate` panics on a multi-byte character at byte 19 or 20 of the date (C56).

## Trusted base

* The Lean 4.33 kernel and Mathlib's definitions of the rationals, `⌊·⌋` and `Int.log` (used in `Rust/Float.lean`,
  `Rust/ParseFloat.lean` and `Spec/Duration.lean`).
* The axioms `propext`, `Quot.sound` and `Classical.choice`; none of them in some theorems. `AXIOMS.md` lists them per
  theorem. No `sorry`, no `native_decide`, no `bv_decide`, no axioms of our own.
* The faithfulness of `Rust/*` and `Model/*` to the code and the standard library, by reading. Supporting evidence:
  * The primitives are characterised independently: searches by `FirstAt`/`LastAt`, UTF-8 by the encoding `Spec.utf8`,
    stable sorting and rounding to even by relations that determine the result, decimal printing by `Decimal`.
  * The model was executed outside the proofs on all seven demos in the repository (`Conformance.lean`,
    `tools/conformance.py`). All 81 values that the unit tests expect came out: serverinfo and client strings,
    clients, players, teams, frags, pings, durations, dates, the statistics text, the server, validity, pauses, aborts, file
    names. For two demos only the statistics are in the repository; these are put into a demo with nothing else. Crate
    functions were replaced by simple stand-ins, and the compiled copy computes floors, logarithms, powers and suffixes
    in a faster way. Numbers are read by the model of `str::parse::<f64>`. Flag events are not covered: the demo that their test reads is not in the repository.
  * The unit tests that need no demo are evaluated in `UnitTests.lean`.
* The specification files, which are short and meant to be read.

## Hypotheses and real demos

A theorem can be true, with hypotheses that an example meets, and still say nothing about the demos that servers record.
`tools/hypotheses.py` checks some of the hypotheses on the seven demos in the repository, without using the model:

* Met by all seven: whole frames with nothing left, the spawn command with 13056 bytes after it, a date before the end of the
  match, the end marker nowhere but at the end (the 4on4 demo has none), and stats, where there are any, at offset 18 or later.
* Chat (C89): 2231 frames contain only chat. All of them are sent to single players, none to all. An earlier version of C89
  asked for chat to all players, after a string and before a frame to all, and so covered none of them. The present one covers
  all 2231; the results about clients, stats and players cover 2199 of them, which lie outside header and stats, and the
  equality of durations 1673, which have no time of their own; `C89_time` covers the others.
* Anonymous teamkills: the 2on2 demo has 5 and the 4on4 demo 1, so theorems that exclude them do not apply to these two demos
  as a whole: `C27_insert`, `C27_only_medium_prints`, `C61_frags`, `C68_obituary`, `C68_one_name`, `C68_two_names`, `C69_frags`,
  `C80_frags`, `C89_frags`, `C94_frags_named`, and `C89_many` as far as scores are concerned.
  `C27_far`, `C61_frags_closed`, `C68_obituary_closed`, `C69_frags_closed`, `C80_frags_closed`, `C89_match`, `C89_many_match` and
  `C94_frags_closed` allow them outside the searched frames; no chat in the seven demos lies there.
* All seven demos meet every hypothesis of C97 that the script can check: header, userinfo strings, different names, names that
  cannot be mistaken for obituaries, pings, date, times and stats (four demos). Every frame that begins with a medium print
  announces an obituary. Of the 6 anonymous teamkills 5 are charged to a team mate with a score update nearby; for one there is
  no such update and nobody is charged. `Told`, used by C88 and C97, allows both. The script approximates the conversion of
  text; that the parsed userinfo strings stand for the clients is an assumption about an external crate.
* The recorder of C82, C83, C85 and C86 is idealised: no demo has its form. C97 is what applies to recorded demos.
* No demo has frames without content, which C95 is about.

The other hypotheses were checked only on the examples beside the theorems.

## Wrong programs

`seeded/LOG.jsonl` lists edits of the model as a realistic bug would make them. For the
earlier ones the whole project was rebuilt, for the later ones the modules of the properties concerned, and the theorems that no
longer hold were collected. `theorems_failed` names the property theorems whose proof, or a lemma used in
it, no longer checks; `failed_declarations` the declarations where Lean reported an error. When the theorems of the broken
claim survived, they were tightened, and `theorems_tightened` names them.
