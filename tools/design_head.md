# Formal model of vikpe/mvdparser in Lean 4

## Layout

* `lean/Verif/Rust/*` – small models of the Rust, std and bstr operations the code uses: outcomes with explicit panic,
  machine integers, slices, substring search, UTF-8 strings, hash maps, stable sort, binary32.
* `lean/Verif/Model/*` – the code of `/repo/src`, function by function. Each definition cites its lines.
* `lean/Verif/Spec/*` – specification vocabulary: wire format, messages, first and last occurrences, obituary phrases,
  rounding, and so on. It uses none of the model's functions; a few files use the types of the model's results.
* `lean/Verif/Lemmas/*` – helper lemmas.
* `lean/Verif/Props/*` – the property theorems `Cnn_…`, with a concrete case that meets the hypotheses beside them.
* `lean/Verif/UnitTests.lean`, `lean/Verif/Conformance.lean` – the repository's unit tests run on the model; see Trusted base.
* `MANIFEST.json`, `AXIOMS.md` and this file are generated by `tools/*.py`.
* `seeded/LOG.jsonl` – wrong programs tried against the theorems.

## Model conventions

* Demo data is `List UInt8`. A Rust `String` or `&str` is the list of its Unicode scalar values. Where the code slices a
  string by byte offset, the offset into the UTF-8 encoding and the panic inside a character are modelled.
* A call has one of four outcomes: `ok`, `err` (an `Err(_)`, with its kind), `panic`, and `hang` for a loop that did not
  finish within its fuel. C01 proves that `hang` never happens.
* Machine integers are `Nat` or `Int` with explicit overflow: a panic when overflow checks are compiled in (dev and test
  profiles), wrap-around otherwise (release profile). `Env.checks` selects the profile; theorems hold for both unless they
  say otherwise.
* `HashMap` iteration order is an arbitrary permutation (`Env.order`), chosen afresh for every map of a call.
* `f32` values are exact rationals rounded to 24 significant bits, to nearest, ties to even. The numbers in question (sums
  of `u8`, `u16` or `u32` values and their quotients) are far from the exponent limits.
* `Cursor::read_exact` at the end of the data leaves the cursor at the end or where it was, depending on the version of the
  standard library. Both are modelled (`Env.eofSeek`); C59 proves that the results do not depend on it.
* External crates and locale-like functions are parameters, the fields of `Env`: the text conversions and the sort of
  `quake_text`, `quake_serverinfo::Settings::from`, `quake_clientinfo::Clientinfo::from`,
  `ktxstats::v3::KtxstatsV3::try_from`, chrono's date parser, `str::to_lowercase` and `str::parse::<f64>`. Theorems hold for
  every choice of them. Where a theorem needs a fact about one, it is a hypothesis of the theorem.
  `Rust/ParseFloat.lean` models the correctly rounded reading of decimal numbers; C104 and `C106_duration` assume that
  `str::parse::<f64>` is this function.
