# Formal model of cyclonedx-rust-cargo in Lean 4

## Layout

* `lean/Verif/Model/*.lean` – the model: total computable functions, one per Rust
  function; every definition cites the file and lines in `/repo` it models.
* `lean/Verif/Spec/*.lean` – small specifications (paths in a graph, "hexadecimal
  digit", "balanced event sequence", ...) that do not use the model's helpers.
* `lean/Verif/Lemmas/*.lean` – helper lemmas.
* `lean/Verif/Props/*.lean` – the property theorems (`Cnn_...`), each followed by an
  `example` showing that a concrete non-trivial case meets its hypotheses.
* `properties.jsonl` – the English properties, `MANIFEST.json` – property → theorems,
  `seeded/LOG.jsonl` – mutation tests of the theorems, `AXIOMS.md` – the axioms of each theorem.
* `scripts/` – `manifest.py` writes the manifest, `axioms.py` the list of axioms, `elements.py` checks the table of XML
  elements against the documents of the repository, `schema.py` translates
  the JSON schemas.

## General modelling decisions

* Rust `String`/`&str` → Lean `String` (both are sequences of Unicode scalar values);
  `u32`, `usize` → `Nat` with explicit bounds where parsing checks them; `f32` → its 32 bits.
* `BTreeMap` → strictly sorted association list (`Model/BTreeMap.lean`), with
  insertion/lookup/iteration proved correct; `HashMap` → association list whose
  iteration order the code never observes; `IndexMap` → insertion-ordered list.
* `panic!`, `expect`, slice/map indexing → explicit `Except` error values, so "never panics" is a
  theorem, not an assumption.
* Loops → structural recursion, or recursion on a fuel argument that is shown to be
  sufficient (termination is then part of the theorem).
* For each type of `models/` there is one writer and one reader per format and version, which is the
  composition of the conversion between model and specification with the serialisation
  (`Model/Format/*.lean`: `toJson`, `ofJson`, `writeXml`, `readXml`). Every definition cites both the
  conversion and the (de)serialiser it fuses. `x.at v` (`Spec/Format`) is the part of `x` that version
  `v` has.
* The structs of `specs/` (one per type and version) are modelled in `Model/File/Types.lean`, indexed by
  the version; `Model/File/Convert.lean` has the conversions from and to the types of `models/`,
  `Model/File/Json.lean` the (de)serialisers of the structs. `C75_written` and `C75_read` prove that the
  fused JSON writers and readers are the compositions of the two.
* The generator, the command line and the configuration are modelled in `Model/Generator.lean`,
  `DepGraph.lean`, `Purl.lean`, `Cli.lean`, `Config.lean`; writing files in `WriteFile.lean`;
  validation in `Validation.lean` (contexts, results, merging), `Checks.lean` (the checks of single
  values), `Validate.lean` (all types); regular expressions in `Regex.lean`; the `versioned`
  attribute macro in `Macro.lean` (on trees of items with attribute lists).

### External code

What the code calls outside the repository is a parameter of the model, or a fragment that is
modelled and trusted:

| crate | treatment |
|-------|-----------|
| `cargo_metadata`, `cargo-lock` | data types only; `MetadataOk` (`Spec/Bom.lean`) says what `cargo metadata` guarantees, `PlainIds` (`Spec/SchemaEnv.lean`) adds what C65 needs |
| `clap` 4.4 | written out from its documentation and the attributes of `cli.rs` (`Model/Args.lean`); requests for help or the version, `--`, abbreviations (which are off) and `RUST_LOG` are left out |
| `spdx`, `fluent-uri`, `purl`, `time`, `validator`, file system, environment, clock, randomness | fields of `Env` (generator) and `VEnv` (validation): arbitrary functions. Theorems that need them to agree say so: `Agree`, `RendersValid` (C57, C64), `RendersTrimmed` (C63), `FormatsAgree` (C65) |
| `regex` | the patterns are written out as data (`Pattern`) and matched by a verified matcher with the semantics of `is_match`; that `.` does not match a line feed is modelled |
| `xml-rs` | writers produce and readers consume event lists. `deliver` (`Model/Xml.lean`) says what becomes of written events: end tags get their names, tags are in the default namespace, text is trimmed and blank text vanishes (`trim_whitespace(true)`), CDATA is delivered verbatim unless it contains `]]>`, attributes are delivered verbatim, adjacent texts are merged. Escaping, line-end normalisation and characters that XML forbids are not modelled; a repeated attribute is not rejected |
| `serde`, `serde_json` | values, not text. The derived (de)serialisers are modelled field by field (`rename`, `flatten`, `untagged`, `skip_serializing_if`, `default`, missing members, repeated members, and the order of the members where a flattened enumeration takes the first one it knows; `serde_json::Value` as a sorted map in which the last of repeated members is kept). Not modelled: structs given as arrays, unit variants given as objects, and the text of numbers, for which `F32Format` states what is assumed. The depth limit of `serde_json` (128) is a parameter `ReadLimit` |
| `strum` | the tables of names are written out |
| `syn`, `quote` | the macro is modelled on trees of items |

### What is not modelled

Process start-up and logging, running `cargo metadata`, the text of XML and JSON documents, error messages other than the kinds of errors, `Debug` output, and the tests.
XML schemas: the repository has none, so there is no full XML counterpart of C65/C66; C83 covers the names,
nesting and order of elements and the names of attributes.

Files are modelled by their whole contents (`Spec/Run.lean`): a file is as before, damaged, or holds a
whole document. A stopped process is one that is killed; that the operating system loses what was
written before (power failure) is not modelled. `Env` is fixed during a run and between two runs of
C72: what the tool writes has no influence on what it reads.

## Plan per property

| id | modelled | proof |
|----|----------|-------|
| C01 | `index_dep_kinds` as work-list loop over a triple-visited set | loop invariant (soundness: every table entry is the strength of a path; completeness: visited set closed under edges at exit), fuel bound by number of triples; spec: inductive `Path` with minimum kind |
| C02, C04, C06 | `all_dependencies` current/next queues, `filtered_dependencies` | loop invariant, spec: inductive reachability |
| C03, C09, C22 | `create_bom`, `create_dependencies`, `create_toplevel_component`, `create_sboms` | corollaries of C02/C07 + numbering lemma |
| C05 | both traversals | C01 + C02 |
| C07 | `top_level_dependencies` | direct |
| C08 | `index_packages`, `index_resolve` | sorted-list extensionality + permutation invariance |
| C10 | `create_bom`, `create_metadata` with clock and randomness as parameters | two-run equality |
| C11 | `SbomConfig::merge`, `resolve_config` | field-wise; documented precedence refuted |
| C12 | `Args::as_config` feature splitting | spec: maximal separator-free pieces |
| C13, C14, C15 | `filename`, `per_artifact_sboms`, `write_to_files` | string lemmas, injectivity with witness for the failing case |
| C16 | `get_licenses` with SPDX parser parameter | case analysis |
| C17 | `create_toplevel_component` | list induction |
| C18 | `locate_cargo_lock` over path lists | induction on path |
| C19 | `package_hashes`, `pkgid`, `get_hashes` | key injectivity |
| C20, C21 | `get_external_references`, `parse_author` | list/regex lemmas |
| C23 | `source_to_vcs_url` | string lemmas |
| C24–C27 | `ValidationContext`, `ValidationResult` | induction over builder calls |
| C25, C38 | `validate_version` of all model types | induction over the types |
| C28, C29 | bom-ref collection of `Bom::validate_version` | induction over trees, spec: list of all refs |
| C30 | `NormalizedString` | induction over characters |
| C31, C36 | enumerations | case analysis |
| C32, C34, C47 | regular expressions through the matcher | language equations |
| C33 | `validate_confidence` over the bits of an `f32` | case analysis; refuted above 1 |
| C35 | `parse_json_value` | case analysis |
| C37 | `Licenses::validate_version` | list induction |
| C39 | spec conversions, per version (`Model/File`), and the fused writers and readers | induction over the types |
| C40–C43 | XML writers/readers as functions on event lists | printer/parser induction for every continuation |
| C42, any content | all XML readers | `Spec/Bounded.lean`: what is consumed is a part of the element, and nothing depends on what follows. One lemma on the loop that all readers share, by induction on the events that are left, with the invariant that these are a rest of the element's events; one lemma per reader |
| C43, everywhere | all XML readers | `Spec/XmlForeign.lean`: the names of the format, the types of elements read leniently, and the relation of a document with the same document with foreign elements added in such elements, at any depth. One lemma per reader: the outcome, error or value, is the same; components and services by induction on the depth. Conforming documents meet the condition by the table of C85 |
| C44 | JSON value serializer/deserializer | induction over the types |
| C45 | `AttachedText::new` and the base64 encoder it calls | induction by groups of three bytes |
| C46 | `SpdxExpression` with parser parameter | case analysis |
| C48 | macro filter on item trees | list induction |
| C49–C51 | `create_component`, `get_purl`, `create_subcomponent` (`purl.rs`), relative paths as component lists | case analysis, path lemmas |
| C52 | `get_metadata`'s `cargo metadata` command line from the options | case analysis |
| C53, C55 | enumerations and the patterns for media types and CPEs | language equations, comparison with the lists of the schemas |
| C54 | `SbomConfig::merge` as an operation | algebraic laws |
| C56 | `create_bom`, `UrnUuid` | string lemmas |
| C57 | generator and validation together | C38's characterisation of validity applied to the shape of generated SBOMs |
| C58, C60 | conversion to a version and writing | induction over components; `toJson v b = toJson v (b.at v)` |
| C59, C63, C64 | `write_to_file` and the readers, after the generator | C41/C44 applied to the shape of generated SBOMs |
| C61 | attribute lists of all start tags | induction over the writers |
| C62 | `parse_from_xml_with_version`, root element | case analysis |
| C65, C66 | the published JSON schemas of 1.3, 1.4, 1.5 (translated by `scripts/schema.py` from `test-utils/schema`), a semantics of JSON schema (`Spec/Schema/Syntax.lean`), all JSON writers | one lemma per type: a sound value is accepted by the definition of the schema for its type |
| C67 | all JSON writers | `Spec/Unique.lean`: no object has a name twice, at any depth; one lemma per writer |
| C68 | all JSON readers and writers | `Spec/Settled.lean`: what a document must not have; one lemma per reader: what is read from a settled value meets the round-trip condition of its type, for every version from the one read on, and has only what that version has |
| C69–C72 | `main.rs`, `platform.rs`, the file operations of `generator.rs` as a program of `create` and `fill` steps (`Model/Main.lean`); `Spec/Run.lean`: what steps do to files when any of them may fail and the process may be stopped at any time | the program of a run is the list of its documents; induction over the run |
| C73 | all JSON readers against the three schemas | `Spec/Readable.lean`: what a document must avoid, member by member; one lemma per reader and version: what the schema of the type accepts is read (`Lemmas/Reads`), using the rules of `Valid`; for nested components and the like by induction on the nesting depth |
| C74 | all JSON readers and writers against the schemas; the schema of 1.3 leaves objects open, so it is taken with `additionalProperties: false` (`Spec/Strict.lean`) | `Spec/Lossless.lean`: what a document must avoid, member by member; one lemma per reader and version: what the schema accepts is read, and written as the same value (`Lemmas/Keeps`); the objects are closed, so every member is one of those the reader and the writer name, or one that `Lossless` excludes. Counterexamples: documents that are read alike (`C74_lost`) or come out changed (`C74_changed`) |
| C75 | the structs of `specs/`, their conversions and their JSON (de)serialisers (`Model/File`) | `Spec/Named.lean`: which values are read back from their names; one lemma per type: the round trip holds exactly for these (`Lemmas/File/Convert.lean`); one lemma per type: writing the converted struct is the fused writer (`Lemmas/File/Json.lean`), converting the struct read is the fused reader (`Lemmas/File/Read.lean`) |
| C76 | all XML readers and writers | `Spec/XmlKept.lean`: what reading does not guarantee of what `Bom.XmlOk` asks for; `Lemmas/Clean.lean`, `Lemmas/Gets/`: one lemma per reader, by an invariant on its local variables through its loop: what it returns meets the round-trip condition of its type for every version from its own on, if the events have clean texts; then C41 |
| C77 | all JSON readers and writers | `Bom.JsonOk` (`Spec/Format`) is the condition; C44 is one direction; for the other, one lemma per type (`Lemmas/Only`): if reading what is written for a value gives the value (as the version has it), then the value meets the condition of its type, by inverting the reader field by field (`Lemmas/JsonOnly.lean`) |
| C78 | all XML readers and writers | `Bom.XmlOk` (`Spec/Format`) is the condition; C41 is one direction; for the other, one lemma per type (`Lemmas/XOnly`): reading the element that is written for a value fails, or gives a value that is the written one only if that meets the condition of its type. The loop of a reader is followed over what each field wrote (`Lemmas/XmlOnly.lean`): it fails, or assigns a variable; comparing the result with the value gives the condition of the field |
| C79 | `ValidationContext`, `ValidationResult`, all `validate_version` implementations | `Spec/Places.lean`: the places of the parts of each element, the places of its own violations, the places of the messages of a report. One lemma per builder call: it reports messages exactly below its name; one lemma per type by combining its calls; then induction over the nesting of elements |
| C80 | `parse_from_json`, the derived readers of all types, `serde_json::Value` | `Spec/Reordered.lean`: documents that differ in the order of members. One lemma per reader: it gives the same for both; induction over the document for the conversion to `Value`, which gives the same value for both |
| C81 | `parse_from_json`, `parse_from_json_with_version` | the conversion to `Value` only reorders a document without repeated members (C80); the writers give no member twice and alternative members in alphabetical order, by one lemma per writer |
| C82 | `parse_from_json`, `parse_from_json_with_version`, the derived readers of all types | `Spec/Unknown.lean`: the names of the format, documents with additional members. One lemma per reader, as for C80, and one for the conversion to `Value` |
| C83 | all XML writers | `Spec/XmlElements.lean`: a table of the child elements, in order, and attributes of each element, and a table of the elements the library writes differently. One lemma per writer: what it writes is arranged by the second table; a comparison of the tables gives the format for documents without the elements concerned; for generated documents, one lemma per writer used, directly with the table of the format |
| C84 | all public constructors and checked conversions | per constructor an equivalence with a condition on its arguments, from the rules of C38; for documents, the `bom-ref`s of built elements by induction on the lists |
| C85 | the table of the XML schema (`Spec/XmlSchema.lean`) and all XML readers | for each reader: it takes every element of its type, by an invariant over the loop on the child elements; components and services by induction on the depth; the table and the arms of the readers are compared by evaluation |
| C86 | the table of the XML schema, all XML writers and the generator | for each writer: what it writes is a tree whose elements are valid or in the list `Departs`, composed along the sequences of the table; components and services by structural recursion; for generated documents with an empty list; counterexamples with a check that is proved to find only invalid documents |
| C87 | all XML readers | `Spec/XmlAttributes.lean`: documents whose events correspond one by one, with the attributes of the table of C83. One lemma per reader: on corresponding events it has the same outcome, error or value, and leaves corresponding events; components and services by induction on the depth |
| C88 | all XML readers, the table of the XML schema | `Spec/XmlExchange.lean`: exchanges of neighbouring child elements whose names are in no common part of the sequence of their parent. For each reader: every child element has an effect on the local variables that does not change when something is exchanged inside it (from C85), and the effects of children with names apart commute, shown pair by pair for all arms; components and services by induction on the depth. For the order of the schema: insertion sort by the place in the sequence, using a check of the whole table that names at different places are apart |
| C89 | writers and readers of both formats | the condition of C78 implies that of C77 for every type, if the parts listed in `Spec/Convert.lean` do not occur; with the exactness of C77 and C78 this is a statement about writing and reading only; for documents that were read the lemmas of C91 make it exact |
| C90 | writers and readers of both formats | `Spec/Tree.lean` and `Spec/TreeXml.lean` turn a tree of named fields into JSON and XML with tables of names only; for every type the writer is proved equal to this, by induction where components and services are nested; the readers follow with the exactness of C77 and C78 |
| C91 | all readers of both formats | `Spec/Dated.lean`: the fields that came with later versions, for every structure; `Lemmas/Brings.lean` (JSON) and `Lemmas/Finds.lean` (XML): one lemma per reader, without any condition on the input, that the version keeps what is read as it is; `Lemmas/Dated.lean`: then it also keeps every part, at any depth, and has none of the fields |
| C92 | `cli.rs`, and of `clap` what its derive makes of the attributes there (`Model/Args.lean`): options, spellings, values, repetition, conflicts; `setup_logging` | `Spec/Args.lean`: the table of options, a relation between arguments and the options they spell, a relation between options and settings; the parser is proved equal to both relations (`Lemmas/Args.lean`), by induction over the arguments |
| C93 | validation, as for C38 | `Spec/Versions.lean`: the license rule of 1.5 and what came with 1.5; proved from C38's rules element by element, so at any depth |
| C94 | validation and file formats, as for C38, C77 and C78 | `Spec/Stays.lean`: what dependencies and compositions refer to; each element of what the version keeps comes from an element of the BOM (`Lemmas/Stays.lean`), whose rule holds. Violated in 1.3: a reference to a vulnerability is kept, the vulnerability is not |
| C95 | file formats, as for C77 and C78 | stated with writing and reading only; what a version has of what another has is what the earlier one has, and what an older version has is kept by a newer one, structure by structure (`Lemmas/Format/Between.lean`) |
| C96 | all XML readers | `Spec/Ends.lean`: what is left is a rest of the events and shorter, and errors are those of the program. The loops of the model have a bound on their turns and a test of progress, which give errors that the program does not have; by induction on the bound neither occurs, for each reader, given that the readers it calls make progress (`Lemmas/Ends/`). That the limit on nested components does not matter for shorter events and flatter JSON: the readers for two limits agree, by induction on the events and on the depth |
| C97 | the JSON readers of all versions | `Spec/Older.lean`: what the reader of an earlier version refuses, on the value read; what it makes of the rest is `Bom.at`. Proved reader by reader as an equivalence (`Lemmas/Older.lean`), for nested components by induction on the limit |
| C98 | the writers of all versions | `relabel` (`Spec/Older.lean`) for JSON, equal lists of events for XML. For every versioned type, what the later version writes of `at v x` is what `v` writes of `x` (`Lemmas/Newer.lean`); for documents that were read the part is the whole (C91) |
| C99 | the writers, `write_to_file` | equality of JSON values and of XML events with their namespace; that equal values have equal texts and the other way round is part of the JSON and XML libraries. Proved from the round trips (C44, C41, C59); a collision shows that their conditions are needed |
| C100 | `main`, `generate_sboms`, `create_sboms`, `write_to_files` | `Spec/Presentation.lean`: what an SBOM says, a run with other contents of files. Every function of the generator is shown not to depend on these options (`Lemmas/Presentation.lean`); runs with two versions are compared operation by operation, with C98 for the contents |
| C101 | `generate_sboms`, `get_metadata`, `create_sboms`, `create_bom`, `get_licenses` | `Spec/Options.lean`: SBOMs without licenses. The generator is run side by side with two configurations (`Lemmas/Options.lean`): for licenses the results are equal up to them; for the options for dependencies the selected packages are a part of all (C02, C07) and each gives the same component; verbosity only reaches the call of cargo |
| C102 | `create_sboms`, `index_dep_kinds`, `all_dependencies`, `top_level_dependencies`, `create_bom` | `Spec/Locality.lean`: two answers of cargo that agree on what a package uses. Edges, paths and therefore the selected packages and their dependencies are the same (`Lemmas/Locality.lean`); sorted maps with the same lookups are equal; scopes by C01 |
| C103 | `create_sboms`, `index_dep_kinds`, `all_dependencies`, `top_level_dependencies` | Paths in the smaller graph are paths in the larger one; the rest from the exact characterizations C01, C02 and C07 |
| C104 | `create_sboms`, `create_component`, `create_toplevel_component`, `get_purl`, `get_hashes` | What a component says as a function of the package (`Lemmas/Component.lean`), for two members; only hashes and package URLs depend on the member, through the `Cargo.lock` found and the directory of the member |
| C105 | `write_to_files`, `per_artifact_sboms`, `filename` | Both runs have the same SBOMs up to the option (C100); induction over the targets, then over the artifacts, shows that one list of files is a sublist of the other |
| C106 | `create_bom`, `create_dependencies`, `all_dependencies`, `top_level_dependencies` | `Spec/Paths.lean`: paths in the dependency section; induction over paths, from C02, C03, C04 and C07 |
| C107 | `create_sboms`, `all_dependencies`, `index_dep_kinds`, `create_dependencies` | Paths from the two members are put together; from C01, C03, C04 and C106 |
| C108 | `generate_sboms`, `resolve_config`, `get_metadata`, `host_platform`, `create_metadata` | Both uses of the target of the configuration are compared, for each of its three sources; found by a seeded bug that no theorem noticed |
| C109 | `create_sboms`, `create_bom`, `create_metadata`, `create_component`, `create_toplevel_component` | Each record equals one with only the allowed fields set; induction over members and targets |

No property is considered inexpressible.

## Where the code does not do what the property says

For these the negation is proved with a concrete witness, and the property is proved under a
condition that excludes the witness (suffix `_partial`) or with the exact behaviour.

| property | disagreement | witness |
|----------|--------------|---------|
| C11 | `SbomConfig::merge` lets the other side win, so a target on the command line loses | `C11_cli_target_loses` |
| C14 | an overridden file name collapses the names of several artifacts | `Props/Files.lean` |
| C31 | unknown algorithms and identity fields are printed without their text; the aggregate type `…proprietary…` is misspelt when parsed, `codified-infrastructure` when printed; score method `other` is not known | `C31_*_refuted` |
| C32 | the pattern for hashes is anchored wrongly: `^(a)|(b)|…$` | `C32_hash_refuted` |
| C33 | confidences above 1 and NaN pass | `C33_confidence_refuted` |
| C36, C53 | aggregate types and external reference types of 1.5 pass in 1.3 and 1.4 | `C36_aggregate_refuted`, `C53_*_refuted` |
| C38 | parts of the document are never validated (signatures, annotations, formulation, lifecycles, `last_updated`, …) | `C38_reaches_everything_refuted`, `C38_ignores_*` |
| C39 | an unknown signature algorithm loses its name; unknown values that are called like known ones become these | `C39_fails_algorithm`, `C39_fails_name` |
| C41 | the XML writer or reader loses or rejects: signatures, annotations, licensing, evidence, proofs of concept, blank or empty texts, task types, empty tool lists, contacts without name | `C41_*` |
| C89 | What XML keeps is not always kept by JSON: infinite scores, chains of signatures, data flows | `C89_infinity_lost`, `C89_chain_lost`, `C89_flows_lost` |
| C90 | Ten members of JSON have names that the format does not have; two attributes of XML are written under the name of another field | `C90_misnamed`, `C90_clash` |
| C43 | Lists and elements that are not read leniently reject foreign elements, which the format allows there; namespaces are not looked at, so a foreign element with a name of the format is taken for one of the format | `C43_closed`, `C43_namespace` |
| C42 | The reader of a signature that contains text goes beyond the end tag of the signature | `C42_beyond` |
| C42, C43 | XML readers that skip unknown elements do so tag by tag, so they are confused by their own names inside | `C42_fails` |
| C44 | the JSON writer or reader loses: signature chains, unknown algorithms, service data | `C44_*` |
| C55 | the pattern for CPEs is not anchored | `C55_cpe_refuted` |
| C57, C64 | a package URL that starts with `urn:cdx` is taken for a BOM link, so the SBOM is invalid and a debug build panics; the exact conditions are `C57_exact`, `C57_written_exact` and `C64_debug_exact` | `C57_bom_link_refuted`, `C64_debug_panics` |
| C61 | in 1.5 some start tags carry an attribute twice | `C61_fails` |
| C63 | an empty license file makes the XML unreadable; outer white space of a description is lost | `C63_empty_license_file`, `C63_description_changed` |
| C66 | members with wrong names (`bomRef`, `responses`, `confidence_interval`, `size_allocated`, `Organization`, `Contact`), nulls, wrong shapes (`data`, `sensitiveData`, data set references, signature lists), values out of range | `C66_rejected` |
| C68 | the type `codified-infrastructure`, a misspelled `aggregate` and unknown identity fields are read but written differently; a number too large for `f32` is written as `null`, which may be unreadable | `C68_codified_lost`, `C68_aggregate_lost`, `C68_field_lost`, `C68_infinity_unreadable` |
| C73 | conforming documents that cannot be read: numbers of more than 32 bits or with a fraction, properties without name or value, versions without status, call stacks without frames, lists under `data` of a component and `sensitiveData`, signature lists, chains and algorithm URIs, references as datasets, governance parties, 1.5 documents without `version`, entries of `affects` and `references` that are not objects, extra members next to `license`, `bomRef` | `C73_unreadable` |
| C74 | members that are read without a trace: `$schema`, `releaseNotes`, `response`, `bom-ref` outside of components, services and workflows, `confidenceInterval`, `considerations`, `sizeAllocated`, further members of signatures and service data, an empty `dependsOn`, a missing volume `mode` | `C74_lost` |
| C74 | members that come out changed or added: unknown members of any object in 1.3, and of properties and proofs of concept in later versions, `null` for what is missing in `licensing`, numbers that `f32` does not have, `codified-infrastructure` | `C74_changed` |
| C76 | read from XML but not written or written differently: outer white space of CDATA sections, contacts without content, `codified-infrastructure`, licensing, occurrences, call stack, identity; a workflow with a task is written so that it cannot be read | `C76_*_lost`, `C76_task_unreadable` |
| C79 | a wrong `first_issued` of a vulnerability analysis is also reported as a wrong `last_updated` (`models/vulnerability_analysis.rs` validates `first_issued` under both names) | `C79_report_places_fails`, `C79_report_places_partial` |
| C80 | the readers for a version take the first of `id` and `name` of a license, and of `version`, `range` and `undefinedVersionRange` of something affected, so the order of these members matters | `C80_order_matters`, `C80_parse_with_partial` |
| C81 | `parse_from_json` accepts repeated members and sorts members, the readers for a version do not, so they can differ | `C81_disagree`, `C81_agree_partial` |
| C82 | an unknown member beside the only member of an externally tagged enumeration, such as `license` in a list of licenses, makes the document unreadable | `C82_fails`, `C82_parse_partial` |
| C83 | XML that other tools reject: `lifecycles` after `properties`, `services` before `components` in `tools`, `trustZone` and `workaround` last, `commands` before `name` in a step, `signature` as an element of CycloneDX, `ref` inside `dataset`, `reference` for `externalReference` in workflows, `bom-ref` on organizations and contacts before 1.5 | `C83_fails`, `C83_format_partial` |
| C84 | `Service::new` and `OrganizationalEntity::new` keep line breaks and tabs in names, which validation then rejects; all other constructors replace them. A text accepted by `Uri::try_from` may be rejected in an external reference | `C84_names_refuted`, `C84_uri_reference_refuted` |
| C85 | Some documents that conform to the XML schema are rejected: `parameters` of an `input`, `dataset` lists with `ref`, dependencies nested three deep, attachments in CDATA sections, empty license names and license texts, texts mixed with CDATA sections, processing instructions, negative or large integers | `C85_unsupported` |
| C86 | Written XML is not valid against the schema for: signatures, trust zones, lifecycles, workarounds, tools with services and components, steps with commands, dataset references, external references of resources, attachments with content type and encoding (attribute twice), data flows with name and description (attribute twice), workflows without task types, tasks (types are not written), license expressions beside licenses, references on contacts, organizations and expressions before 1.5, unknown version ranges, infinite numbers | `C86_fails` |
| C87 | A document that uses a prefix for the namespace of the format and has no default namespace is rejected: the root is recognised by the namespace of the empty prefix | `C87_default_namespace` |
| C94 | In version 1.3 vulnerabilities are left out when writing, but references to them from dependencies and compositions are written, so what is read from the file is not valid | `C94_refuted` |
| C95 | An empty list of tools, which is also what older versions make of tools given as an object, is kept in XML of 1.3 and 1.4 but not of 1.5 | `C95_up_xml_refuted` |
| C99 | Enumeration values given as unknown, with the name of a known value, are written like the known value, so that different BOMs give the same file | `C99_collision`, `C99_json_partial` |

Found while modelling but not stated as properties: `ValidationResult::from(Vec)` keeps only the last
error for a key; `write_to_file` always validates as 1.3; in 1.5 licenses that mix an expression with
others are invalid although earlier versions accept them; writing `Tools` of 1.5 as 1.4 gives an empty
list; the reader of signatures reads past its end tag on the fallback path; several `versioned`
attributes on one item: the last one wins.

## How the specifications relate to the model

The statements in `Props/` use the functions of the model that correspond to the public API
(`createSboms`, `writeToFiles`, `writeFile`, `Bom.validateVersion`, `Bom.outputJson`,
`Bom.parseJson`, …) and definitions of `Spec/`:

* `Spec/Graph.lean`, `Spec/Bom.lean` – paths, reachability, what is in a BOM;
* `Spec/Elements.lean` – the elements of a document, which are inside which, the rule of each;
* `Spec/Format/*.lean` – which values a round trip can keep (`JsonOk`, `XmlOk`), the part of a value a
  version has (`at`);
* `Spec/Documents.lean` – well-formed event sequences, subtrees, foreign elements;
* `Spec/Schema/*.lean` – JSON schemas: their syntax and meaning, and the published schemas as data.
  The translation is done by `scripts/schema.py`, which fails on any keyword it does not know, and is
  trusted. `Spec/Conforms.lean` says which values the schemas accept, element by element;
  `Lemmas/SchemaEval.lean` has a verified evaluator, used for the failing cases.

## Trusted base

* Lean 4.33.0's kernel, and Mathlib as installed (imported module by module).
* Axioms: at most `propext`, `Classical.choice`, `Quot.sound`; `AXIOMS.md` lists them for every
  theorem of the manifest (written by `scripts/axioms.py`). No axiom is added, there is no `sorry`,
  `native_decide` or `bv_decide`. Concrete cases are checked with `decide +kernel`, which the
  kernel evaluates.
* The fidelity of the model to `/repo`, which the citations make checkable and `seeded/LOG.jsonl`
  tests: wrong programs must break theorems.
* The behaviour of external crates as stated above.
