{"id": "C01", "title": "Component scope reflects the strongest dependency path", "statement": "For every package of the resolved graph, the kind recorded for it is the best, over all dependency paths from the root, of the weakest edge kind on that path (normal > build > dev). Hence a component is emitted with scope `required` iff some path of only normal edges leads to it from the root, and otherwise `excluded`. The traversal terminates on every finite graph, including cyclic ones.", "quantifier": "all resolve graphs (any number of nodes, parallel edges of several kinds, cycles) and all roots", "why_tests_cant": "The claim is a maximum over an infinite set of paths in cyclic graphs; tests fix a handful of graphs.", "anchors": ["cargo-cyclonedx/src/generator.rs:index_dep_kinds", "cargo-cyclonedx/src/generator.rs:PrivateDepKind", "cargo-cyclonedx/src/generator.rs:create_component"]}
{"id": "C02", "title": "All-dependencies mode lists exactly the reachable packages", "statement": "With all dependencies included, the packages in the SBOM are exactly the root plus the packages reachable from it through retained edges (an edge is retained iff one of its kinds is not dev; with no-build-deps iff one of its kinds is normal). No reachable package is missed, no unreachable package is listed, and the traversal terminates.", "quantifier": "all resolve graphs, roots and values of the no-build-deps option", "why_tests_cant": "Soundness and completeness of a work-list traversal over arbitrary cyclic graphs.", "anchors": ["cargo-cyclonedx/src/generator.rs:all_dependencies", "cargo-cyclonedx/src/generator.rs:filtered_dependencies", "cargo-cyclonedx/src/generator.rs:add_filtered_dependencies"]}
{"id": "C03", "title": "Dependency section is closed", "statement": "In every generated BOM each `ref` of the dependency section and each of its `dependsOn` entries is the bom-ref of the top-level component or of a listed component; every listed component and the root has exactly one entry. So the dangling-reference checks of the validator never fire on a generated BOM.", "quantifier": "all consistent cargo metadata, both dependency modes, all configurations", "why_tests_cant": "Relates three separately built parts of the output for every graph.", "anchors": ["cargo-cyclonedx/src/generator.rs:create_bom", "cargo-cyclonedx/src/generator.rs:create_dependencies", "cargo-cyclonedx/src/generator.rs:all_dependencies", "cargo-cyclonedx/src/generator.rs:top_level_dependencies"]}
{"id": "C04", "title": "Dependency edges are preserved exactly", "statement": "In all-dependencies mode the `dependsOn` list of an included package is exactly the list of retained edges of its resolve node, in resolve order; no edge is invented, dropped or redirected.", "quantifier": "all resolve graphs and all included packages", "why_tests_cant": "Universal over graphs and over every node of them.", "anchors": ["cargo-cyclonedx/src/generator.rs:all_dependencies", "cargo-cyclonedx/src/generator.rs:filtered_dependencies", "cargo-cyclonedx/src/generator.rs:create_dependencies"]}
{"id": "C05", "title": "--no-build-deps yields only required components", "statement": "With no-build-deps every component in the SBOM has scope `required` when all dependencies are listed, since each is reachable through normal edges only; and every package reachable via normal edges only is present.", "quantifier": "all resolve graphs", "why_tests_cant": "Interaction of two separate traversals (filtering and kind computation) over arbitrary graphs.", "anchors": ["cargo-cyclonedx/src/generator.rs:all_dependencies", "cargo-cyclonedx/src/generator.rs:index_dep_kinds", "cargo-cyclonedx/src/generator.rs:create_component"]}
{"id": "C06", "title": "Development-only dependencies never leak", "statement": "A package whose every path from the root uses an edge with only dev kinds never appears in the SBOM, neither as component nor in the dependency section.", "quantifier": "all resolve graphs and all dependency modes", "why_tests_cant": "Quantifies over all paths of all graphs.", "anchors": ["cargo-cyclonedx/src/generator.rs:filtered_dependencies", "cargo-cyclonedx/src/generator.rs:all_dependencies", "cargo-cyclonedx/src/generator.rs:top_level_dependencies"]}
{"id": "C07", "title": "Top-level mode lists exactly the direct dependencies", "statement": "In top-level mode the SBOM holds exactly the root and its retained direct dependencies; the root entry lists them and every other entry has an empty `dependsOn`, except a root that depends on itself keeps its own list.", "quantifier": "all resolve graphs, roots and filters", "why_tests_cant": "Universal over graphs; includes self-dependency corner cases.", "anchors": ["cargo-cyclonedx/src/generator.rs:top_level_dependencies", "cargo-cyclonedx/src/generator.rs:add_filtered_dependencies"]}
{"id": "C08", "title": "Output order does not depend on metadata order", "statement": "Permuting the package list or the resolve-node list of cargo metadata (unique ids) does not change components, their order, scopes, or the dependency section; components and dependency entries are listed in strictly increasing package-id order.", "quantifier": "all metadata and all permutations of it", "why_tests_cant": "Ranges over all permutations of arbitrarily long lists.", "anchors": ["cargo-cyclonedx/src/generator.rs:index_packages", "cargo-cyclonedx/src/generator.rs:index_resolve", "cargo-cyclonedx/src/generator.rs:index_dep_kinds", "cargo-cyclonedx/src/generator.rs:create_bom"]}
{"id": "C09", "title": "Generated bom-refs are unique", "statement": "The bom-refs of the top-level component, its target subcomponents and all components of a generated BOM are pairwise distinct, so the validator's uniqueness check never fires, provided no package id has the form of a synthesized target ref.", "quantifier": "all metadata with unique package ids and any number of targets", "why_tests_cant": "Universal over target lists (skipped targets must not produce duplicate numbering) and package sets.", "anchors": ["cargo-cyclonedx/src/generator.rs:create_toplevel_component", "cargo-cyclonedx/src/generator.rs:create_bom", "cyclonedx-bom/src/models/bom.rs:validate_version"]}
{"id": "C10", "title": "Reproducible output under SOURCE_DATE_EPOCH", "statement": "When SOURCE_DATE_EPOCH is set the BOM has no serial number and its timestamp is the given instant, so the whole BOM is a function of metadata, configuration and that variable: two runs with different clocks and random sources agree. Without it a fresh serial number is present.", "quantifier": "all metadata, configurations, clock values and random seeds", "why_tests_cant": "Two-run (hyper)property over all environments.", "anchors": ["cargo-cyclonedx/src/generator.rs:create_bom", "cargo-cyclonedx/src/generator.rs:create_metadata"]}
{"id": "C11", "title": "Configuration precedence", "statement": "When two configuration sources are merged, a setting given on the command line wins over the environment, per setting; settings given in only one source are kept.", "quantifier": "all pairs of configurations", "why_tests_cant": "Universal over all option combinations. (The code violates the documented direction; the negation is proved with a witness.)", "anchors": ["cargo-cyclonedx/src/config.rs:SbomConfig::merge", "cargo-cyclonedx/src/main.rs:resolve_config"]}
{"id": "C12", "title": "Feature list splitting", "statement": "Every feature passed on to cargo is a non-empty string without commas or spaces, and the list is exactly the maximal comma/space-free pieces of the --features arguments in order; no feature is lost, merged or invented.", "quantifier": "all lists of argument strings", "why_tests_cant": "Universal over strings.", "anchors": ["cargo-cyclonedx/src/cli.rs:Args::as_config"]}
{"id": "C13", "title": "Output file names stay in the package directory and carry the format extension", "statement": "The SBOM file name has no path separator when the names it is built from have none (an override with a separator is rejected), it ends in `.json` or `.xml` according to the format, and with an override it is exactly `<override>.<format>` unless a platform/target suffix is requested. Without one it is `<package>.cdx.<format>`, and for an artifact `<artifact>_<kinds>.cdx.<format>`.", "quantifier": "all package names, target kinds, targets and options", "why_tests_cant": "Universal over strings and option combinations.", "anchors": ["cargo-cyclonedx/src/generator.rs:filename", "cargo-cyclonedx/src/config.rs:FilenameOverride"]}
{"id": "C14", "title": "Two artifacts of one package never overwrite each other's SBOM", "statement": "With per-artifact description and no file name override, two different artifacts of the same package, differing in name or target kind (kinds as cargo reports them), get different file names.", "quantifier": "all pairs of artifacts", "why_tests_cant": "Injectivity over all strings; a test shows only non-collision of samples. (False in general because `_` may occur in names; proved under the condition that makes it true and refuted by witness otherwise.)", "anchors": ["cargo-cyclonedx/src/generator.rs:filename", "cargo-cyclonedx/src/generator.rs:per_artifact_sboms", "cargo-cyclonedx/src/generator.rs:write_to_files"]}
{"id": "C15", "title": "Per-artifact SBOMs", "statement": "Describing binaries yields one SBOM per bin/cdylib target and no other; describing all cargo targets yields one per subcomponent; each such SBOM has the artifact's name, type and purl at the top, no nested targets, and otherwise exactly the content of the crate SBOM (components, dependencies, serial number).", "quantifier": "all crate SBOMs with any number of targets", "why_tests_cant": "Universal over target lists.", "anchors": ["cargo-cyclonedx/src/generator.rs:per_artifact_sboms"]}
{"id": "C16", "title": "License field of a component", "statement": "A component carries at most one license choice; if the manifest has a license string that parses (in the configured mode) it is the corresponding SPDX expression; if it does not parse it is a named license with that text; the license file is consulted only when there is no license string. Nothing is invented: no license string and no readable file gives no licenses.", "quantifier": "all license strings, parser modes, and license files; SPDX parser as a parameter", "why_tests_cant": "Universal over strings and parser behaviours.", "anchors": ["cargo-cyclonedx/src/generator.rs:get_licenses"]}
{"id": "C17", "title": "Target description of the top-level component", "statement": "The top-level component's subcomponents are, in order, exactly the non-bench/example/test/build-script targets of a recognised kind; each has type application iff it is a binary; refs are numbered consecutively and each is mapped to its own kinds.", "quantifier": "all target lists", "why_tests_cant": "Universal over lists; numbering depends on the number of accepted targets so far.", "anchors": ["cargo-cyclonedx/src/generator.rs:create_toplevel_component", "cargo-cyclonedx/src/generator.rs:filter_targets"]}
{"id": "C18", "title": "Cargo.lock lookup", "statement": "The lock file used is the one in the nearest ancestor directory of the manifest that has one; the lookup fails exactly if none has.", "quantifier": "all paths and file systems", "why_tests_cant": "Universal over directory depth and file-system states.", "anchors": ["cargo-cyclonedx/src/generator.rs:locate_cargo_lock"]}
{"id": "C19", "title": "Checksums go to the right package", "statement": "With a lock file whose entries have names and versions free of `#` and `@` and are unique, a component of a package identified as `source#name@version` has the SHA-256 hash h iff Cargo.lock has an entry with checksum h for the same name, version and source; packages of a different source or version never receive it; without a lock file nothing has a hash.", "quantifier": "all lock files and packages", "why_tests_cant": "Universal; needs injectivity of the key used for the lookup.", "anchors": ["cargo-cyclonedx/src/generator.rs:package_hashes", "cargo-cyclonedx/src/generator.rs:get_hashes", "cargo-cyclonedx/src/generator.rs:pkgid"]}
{"id": "C20", "title": "External references only hold valid URIs in fixed order", "statement": "The external references of a component are exactly the valid URIs among documentation, homepage, links, repository, in this order and with these types; an invalid one is skipped without affecting the others.", "quantifier": "all manifests", "why_tests_cant": "Universal over strings and URI validity oracle.", "anchors": ["cargo-cyclonedx/src/generator.rs:get_external_references"]}
{"id": "C21", "title": "Author strings are parsed losslessly", "statement": "For `Name <mail>` the contact has that name and mail; a string without brackets becomes a contact with that name; authors with an invalid mail are dropped and do not affect others; never panics.", "quantifier": "all author strings", "why_tests_cant": "Universal over strings.", "anchors": ["cargo-cyclonedx/src/generator.rs:parse_author", "cargo-cyclonedx/src/generator.rs:create_authors"]}
{"id": "C22", "title": "One SBOM per workspace member", "statement": "The generator yields exactly one SBOM per workspace member, in workspace order, each with that member as top-level component; with consistent metadata no lookup panics.", "quantifier": "all metadata", "why_tests_cant": "Universal; includes absence of panics on every input.", "anchors": ["cargo-cyclonedx/src/generator.rs:create_sboms"]}
{"id": "C23", "title": "VCS URL of a git dependency", "statement": "For a git source `base?key=value#commit` the VCS URL is `base@commit`; for `base#commit` it is `base@commit`; without commit it is `base@value`; without both it is unchanged (base without `?` and `#`, query without `#`). So the pinned commit is never lost.", "quantifier": "all URL strings", "why_tests_cant": "Universal over strings.", "anchors": ["cargo-cyclonedx/src/purl.rs:source_to_vcs_url"]}
{"id": "C24", "title": "Validation passes iff nothing in it failed", "statement": "A validation result built from field, enum, struct and list checks has errors iff at least one of the performed checks failed; successful checks add nothing, and each failed check is reported under its own field name.", "quantifier": "all sequences of validation steps", "why_tests_cant": "Universal over arbitrarily long sequences of builder calls and nested results.", "anchors": ["cyclonedx-bom/src/validation.rs:ValidationContext", "cyclonedx-bom/src/validation.rs:ValidationResult"]}
{"id": "C25", "title": "Validation never panics", "statement": "Validating any BOM of any version never hits the panics of the result builder (re-use of an occupied key).", "quantifier": "all BOM values and versions", "why_tests_cant": "Absence of a crash on all values of a large recursive data type.", "anchors": ["cyclonedx-bom/src/validation.rs:add_nested", "cyclonedx-bom/src/validation.rs:add_enum", "cyclonedx-bom/src/models/bom.rs:validate_version"]}
{"id": "C26", "title": "List errors point at the offending elements", "statement": "In the report of a list exactly the indices of the elements whose own validation failed occur, each with that element's report.", "quantifier": "all lists", "why_tests_cant": "Universal over list contents and lengths.", "anchors": ["cyclonedx-bom/src/validation.rs:add_list"]}
{"id": "C27", "title": "Uniqueness of list items", "statement": "For lists that must have unique items the report flags exactly the positions whose value occurred earlier in the list, plus first occurrences whose own validation fails.", "quantifier": "all lists", "why_tests_cant": "Universal over lists and equality patterns.", "anchors": ["cyclonedx-bom/src/validation.rs:add_unique_list"]}
{"id": "C28", "title": "bom-ref uniqueness is checked exactly", "statement": "Validation reports a non-unique bom-ref iff two elements among the metadata component, components, services (with all nested ones) and vulnerabilities carry the same bom-ref.", "quantifier": "all BOM trees of any depth", "why_tests_cant": "Equivalence over unbounded recursive trees.", "anchors": ["cyclonedx-bom/src/models/bom.rs:validate_version", "cyclonedx-bom/src/models/bom.rs:BomReferencesContext"]}
{"id": "C29", "title": "Dangling references are reported exactly", "statement": "Validation reports a dependency or composition reference error iff the reference is not the bom-ref of any element collected from the BOM.", "quantifier": "all BOMs", "why_tests_cant": "Equivalence over unbounded trees and reference lists.", "anchors": ["cyclonedx-bom/src/models/bom.rs:validate_version", "cyclonedx-bom/src/models/bom.rs:validate_dependencies_bom_refs"]}
{"id": "C30", "title": "Normalized strings", "statement": "NormalizedString::new replaces CRLF by one space and every other CR, LF, TAB by a space and leaves all other characters in order; the result always validates; it is idempotent; a string that validates is left unchanged.", "quantifier": "all strings", "why_tests_cant": "Universal over strings.", "anchors": ["cyclonedx-bom/src/external_models/normalized_string.rs"]}
{"id": "C31", "title": "Enumerations survive printing and parsing", "statement": "For every enumeration of the model, parsing the printed form of a value gives the value back, and any unknown string is kept verbatim and reported as invalid.", "quantifier": "all enumeration values including the catch-all ones with arbitrary strings", "why_tests_cant": "The catch-all variants range over all strings. (False for three enumerations; negations proved.)", "anchors": ["cyclonedx-bom/src/models/*.rs:new_unchecked"]}
{"id": "C32", "title": "Hash values are validated", "statement": "A hash value passes validation iff it consists of exactly 32, 40, 64, 96 or 128 hexadecimal digits.", "quantifier": "all strings", "why_tests_cant": "Universal over strings. (False: the regular expression is anchored wrongly; one direction is proved, the other refuted.)", "anchors": ["cyclonedx-bom/src/models/hash.rs:validate_hash_value"]}
{"id": "C33", "title": "Confidence values are validated", "statement": "A confidence value passes validation iff it lies between 0 and 1.", "quantifier": "all numbers", "why_tests_cant": "Universal over numbers. (False: values above 1 pass; exact acceptance set proved.)", "anchors": ["cyclonedx-bom/src/models/component.rs:validate_confidence"]}
{"id": "C34", "title": "Serial numbers", "statement": "UrnUuid::new succeeds iff the string is `urn:uuid:` followed by a lower-case 8-4-4-4-12 hexadecimal UUID, keeps it unchanged and the result always validates.", "quantifier": "all strings", "why_tests_cant": "Universal over strings.", "anchors": ["cyclonedx-bom/src/models/bom.rs:UrnUuid"]}
{"id": "C35", "title": "JSON version dispatch", "statement": "parse_from_json interprets a document by its specVersion field: `1.3`, `1.4`, `1.5` select the respective reader; missing, non-string or other values are rejected and nothing is guessed.", "quantifier": "all JSON documents", "why_tests_cant": "Universal over documents.", "anchors": ["cyclonedx-bom/src/models/bom.rs:parse_json_value", "cyclonedx-bom/src/models/bom.rs:SpecVersion"]}
{"id": "C36", "title": "Classification and aggregate types are version gated", "statement": "Component types introduced in 1.5 are rejected when validating as 1.3 or 1.4, and accepted in 1.5; unknown ones always rejected. Same for aggregate types and score methods.", "quantifier": "all enumeration values and versions", "why_tests_cant": "Catch-all variants range over all strings. (One aggregate type escapes the gate; negation proved.)", "anchors": ["cyclonedx-bom/src/models/component.rs:validate_classification", "cyclonedx-bom/src/models/composition.rs:validate_aggregate_type", "cyclonedx-bom/src/models/vulnerability_rating.rs:validate_score_method"]}
{"id": "C37", "title": "Licenses rule of 1.5", "statement": "Validating as 1.5 a licenses list passes iff every entry passes and the list is either all licenses or at most one single expression; in earlier versions mixtures pass.", "quantifier": "all license lists", "why_tests_cant": "Universal over lists.", "anchors": ["cyclonedx-bom/src/models/license.rs:Licenses"]}
{"id": "C38", "title": "Validation reaches every nested element", "statement": "If any sub-element reachable in the BOM (components, services, nested ones, their licenses, hashes, external references, properties, evidence...) is invalid on its own, then the BOM is invalid.", "quantifier": "all BOM trees and all positions in them", "why_tests_cant": "Universal over positions in unbounded trees. (False for some fields that are never visited; proved for the visited ones and refuted for the others.)", "anchors": ["cyclonedx-bom/src/models/bom.rs:validate_version", "cyclonedx-bom/src/models/component.rs:validate_version"]}
{"id": "C39", "title": "Model to specification and back", "statement": "Converting a BOM to the 1.5 file model and back gives the same BOM; converting to 1.3 or 1.4 and back changes only fields that the version does not have.", "quantifier": "all BOMs and versions", "why_tests_cant": "Universal over unbounded recursive data.", "anchors": ["cyclonedx-bom/src/specs/common/*.rs", "cyclonedx-bom/src/specs/v1_5/*.rs"]}
{"id": "C40", "title": "XML output is well formed", "statement": "Every XML writer emits a balanced event sequence: one root element, every start tag closed by its own end tag.", "quantifier": "all BOMs and versions", "why_tests_cant": "Universal over unbounded recursive data.", "anchors": ["cyclonedx-bom/src/xml.rs", "cyclonedx-bom/src/specs/common/*.rs:write_xml_element"]}
{"id": "C41", "title": "XML round trip", "statement": "Reading the XML written for a BOM gives the same BOM back, for every part whose texts are non-blank and trimmed; parts for which this fails are refuted by witness.", "quantifier": "all BOMs", "why_tests_cant": "Universal over unbounded recursive data.", "anchors": ["cyclonedx-bom/src/xml.rs", "cyclonedx-bom/src/specs/common/*.rs"]}
{"id": "C42", "title": "XML readers consume exactly their element", "statement": "A successful element reader consumes exactly the events up to and including the element's own end tag and leaves the rest untouched, for every continuation of the document.", "quantifier": "all documents and continuations", "why_tests_cant": "Universal over event streams.", "anchors": ["cyclonedx-bom/src/xml.rs:read_simple_tag", "cyclonedx-bom/src/xml.rs:read_list_tag", "cyclonedx-bom/src/xml.rs:read_lax_validation_tag"]}
{"id": "C43", "title": "Foreign elements are skipped", "statement": "Where lax validation applies, inserting an arbitrary well-formed foreign element (any depth) among the children changes nothing in the result.", "quantifier": "all well-formed foreign elements and positions", "why_tests_cant": "Universal over trees of unbounded depth.", "anchors": ["cyclonedx-bom/src/xml.rs:read_lax_validation_tag", "cyclonedx-bom/src/xml.rs:read_lax_validation_list_tag"]}
{"id": "C44", "title": "JSON round trip", "statement": "Deserializing the JSON value serialized for a BOM gives the same BOM back.", "quantifier": "all BOMs", "why_tests_cant": "Universal over unbounded recursive data.", "anchors": ["cyclonedx-bom/src/specs/common/*.rs:Serialize/Deserialize derives"]}
{"id": "C45", "title": "Attached text", "statement": "AttachedText::new accepts any byte content, its content is the standard padded base64 encoding, decoding gives the bytes back and the result validates.", "quantifier": "all byte strings", "why_tests_cant": "Universal over byte strings.", "anchors": ["cyclonedx-bom/src/models/attached_text.rs:AttachedText::new"]}
{"id": "C46", "title": "Lax license parsing only yields strict expressions", "statement": "Whatever parse_lax accepts is a valid strict expression after replacing `/` by ` OR `, so a generated license expression always validates.", "quantifier": "all strings and SPDX parsers", "why_tests_cant": "Universal over strings and parser behaviours.", "anchors": ["cyclonedx-bom/src/external_models/spdx.rs:SpdxExpression::parse_lax"]}
{"id": "C47", "title": "BOM links", "statement": "A reference URL is treated as BOM-Link iff it starts with `urn:cdx`; it validates iff version is 1.5 and the text is `urn:cdx:<uuid>/<version>[#<ref>]`.", "quantifier": "all strings and versions", "why_tests_cant": "Universal over strings.", "anchors": ["cyclonedx-bom/src/models/external_reference.rs:validate_bom_link"]}
{"id": "C48", "title": "Versioned code generation", "statement": "The `versioned` attribute keeps an item in the generated module of version v iff the item carries no version list or its list contains v; items are otherwise unchanged and in order, one module per listed version.", "quantifier": "all attribute lists and modules", "why_tests_cant": "Universal over modules.", "anchors": ["cyclonedx-bom-macros/src/lib.rs"]}
{"id": "C49", "title": "Components carry the identity of their package", "statement": "Reference, name, version, description and authors of every component are those of one package of the metadata (line breaks and tabs turned into spaces, name trimmed); a package without description or authors gives a component without them.", "quantifier": "all metadata", "why_tests_cant": "Each test has one package with one set of fields.", "anchors": ["cargo-cyclonedx/src/generator.rs:create_component"]}
{"id": "C50", "title": "Package URLs say where a package comes from", "statement": "The package URL of a component is made of the package's name and version and of one qualifier: none for crates.io, repository_url for another registry, vcs_url for git, and download_url for a local package, whose path, followed from the root package's directory, leads to the package's directory if it lies in the workspace, and is absolute otherwise.", "quantifier": "all packages, sources and directory layouts; the purl crate as a parameter", "why_tests_cant": "Relative paths depend on the relation of three directories at arbitrary depth.", "anchors": ["cargo-cyclonedx/src/purl.rs:get_purl"]}
{"id": "C51", "title": "Package URLs of targets", "statement": "A described target has the package URL of its package with the path of its source file relative to the package directory as subpath; a target whose source lies outside has none.", "quantifier": "all target lists and paths", "why_tests_cant": "Paths are arbitrary.", "anchors": ["cargo-cyclonedx/src/generator.rs:create_toplevel_component", "cargo-cyclonedx/src/purl.rs:get_purl"]}
{"id": "C52", "title": "The cargo invocation reflects the options", "statement": "cargo metadata is asked for all features, no default features and the named features exactly if the command line says so, each independently of the others, and with a platform filter exactly if a single platform is selected; a platform or `all` is always selected.", "quantifier": "all command lines and environments", "why_tests_cant": "The options combine freely.", "anchors": ["cargo-cyclonedx/src/main.rs:get_metadata", "cargo-cyclonedx/src/main.rs:resolve_config"]}
{"id": "C53", "title": "Vocabularies agree with the schema of the version", "statement": "For component types, external reference types and aggregate types, a value passes validation in a version of the specification exactly if the schema of that version lists its text.", "quantifier": "all values of the enumerations and all versions", "why_tests_cant": "A table per version; tests sample single entries.", "anchors": ["cyclonedx-bom/src/models/component.rs:validate_classification", "cyclonedx-bom/src/models/external_reference.rs:validate_external_reference_type", "cyclonedx-bom/src/models/composition.rs:validate_aggregate_type"]}
{"id": "C54", "title": "Merging configurations", "statement": "Merging two configurations yields, for every setting separately, the setting of one of them if it has one and that of the other otherwise; no setting is dropped or mixed up with another, including the settings for licence parsing.", "quantifier": "all pairs of configurations", "why_tests_cant": "Settings combine freely.", "anchors": ["cargo-cyclonedx/src/config.rs:SbomConfig::merge"]}
{"id": "C55", "title": "Media types and CPE names", "statement": "A media type passes validation exactly if it has the form type/subtype; a CPE passes exactly if it is a CPE 2.2 URI or a CPE 2.3 formatted string.", "quantifier": "all strings", "why_tests_cant": "Regular expressions over unbounded strings.", "anchors": ["cyclonedx-bom/src/models/component.rs:validate_mime_type", "cyclonedx-bom/src/models/component.rs:validate_cpe"]}
{"id": "C56", "title": "Serial numbers and SOURCE_DATE_EPOCH", "statement": "Every generated serial number is a valid urn:uuid and different random bytes give different serial numbers; with SOURCE_DATE_EPOCH set, SBOMs are only produced if it is a signed decimal 64-bit number, and the time stamp is that instant.", "quantifier": "all random values, all values of the environment variable", "why_tests_cant": "The values are arbitrary.", "anchors": ["cyclonedx-bom/src/models/bom.rs:UrnUuid::generate", "cargo-cyclonedx/src/generator.rs:create_bom", "cyclonedx-bom/src/external_models/date_time.rs:DateTime::now"]}
{"id": "C57", "title": "Generated SBOMs are valid", "statement": "Every SBOM that is generated, and every SBOM written to a file in any describe mode, passes validation in every version of the specification.", "quantifier": "all metadata that cargo can print, all options and environments, all versions; the parsers of the external crates agree between generator and validation, and accept what the same crates render", "why_tests_cant": "It relates every field the generator fills to every check of the validation.", "anchors": ["cargo-cyclonedx/src/generator.rs:create_sboms", "cargo-cyclonedx/src/generator.rs:write_to_files", "cyclonedx-bom/src/models/bom.rs:Bom::validate_version"]}
{"id": "C58", "title": "Which documents can be written", "statement": "Writing a document as version 1.3 fails exactly if one of the components in it, at any depth and also in pedigrees, has no version. Writing it as version 1.4 or 1.5 never fails. This holds for JSON and for XML.", "quantifier": "all BOMs and versions", "why_tests_cant": "Components nest without bound, and the failure may come from any of them.", "anchors": ["cyclonedx-bom/src/models/bom.rs:output_as_json", "cyclonedx-bom/src/models/bom.rs:output_as_xml", "cyclonedx-bom/src/specs/common/component.rs:TryFrom<models::component::Component>"]}
{"id": "C60", "title": "Nothing newer than the version is written", "statement": "What is written for a version depends only on those parts of the BOM that the version has. Parts that came with a later version of the format have no influence on the output.", "quantifier": "all pairs of BOMs and versions", "why_tests_cant": "Universal over unbounded recursive data.", "anchors": ["cyclonedx-bom/src/specs/common/*.rs", "cyclonedx-bom-macros/src/lib.rs:versioned"]}
{"id": "C61", "title": "No attribute is written twice", "statement": "No start tag in the XML output has an attribute twice, which would make the document malformed.", "quantifier": "all BOMs and versions", "why_tests_cant": "Universal over unbounded recursive data.", "anchors": ["cyclonedx-bom/src/specs/common/*.rs:write_xml_element", "cyclonedx-bom/src/specs/v1_5/*.rs:write_xml_element"]}
{"id": "C62", "title": "XML documents are read only as their own version", "statement": "The XML reader of a version accepts only documents whose root is called bom and is in the namespace of this version, so no document that was written as another version, and what it returns carries this version.", "quantifier": "all XML documents, BOMs and pairs of versions", "why_tests_cant": "Universal over documents.", "anchors": ["cyclonedx-bom/src/specs/common/bom.rs:read_xml_document", "cyclonedx-bom/src/models/bom.rs:parse_from_xml_with_version"]}
{"id": "C59", "title": "Written JSON SBOMs read back unchanged", "statement": "Every JSON file that the tool writes for a workspace is accepted by the library's JSON reader, both the one that picks the version and the one for the version asked for, and gives exactly the SBOM that was generated, labelled with the version asked for.", "quantifier": "all cargo metadata, lock files, environments, configurations, describe modes, versions of the specification and written files", "why_tests_cant": "Universal over workspaces of any size and over all texts in manifests.", "anchors": ["cargo-cyclonedx/src/generator.rs:write_to_file", "cargo-cyclonedx/src/generator.rs:create_bom", "cyclonedx-bom/src/models/bom.rs:output_as_json", "cyclonedx-bom/src/models/bom.rs:parse_json_value"]}
{"id": "C63", "title": "Written XML SBOMs read back unchanged", "statement": "Every XML file that the tool writes for a workspace is accepted by the library's XML reader for the version asked for, and gives exactly the SBOM that was generated.", "quantifier": "all cargo metadata, lock files, license files, environments, configurations, describe modes, versions of the specification and written files", "why_tests_cant": "Universal over workspaces of any size and over all texts in manifests.", "anchors": ["cargo-cyclonedx/src/generator.rs:write_to_file", "cyclonedx-bom/src/models/bom.rs:output_as_xml", "cyclonedx-bom/src/models/bom.rs:parse_from_xml_with_version"]}
{"id": "C64", "title": "A generated SBOM is always written", "statement": "No generated SBOM fails to be written because of its contents, whatever format and version is asked for; in a debug build the additional validation accepts it and does not change what is written.", "quantifier": "all cargo metadata, environments, configurations, builds and written files", "why_tests_cant": "Universal over workspaces and manifests.", "anchors": ["cargo-cyclonedx/src/generator.rs:write_to_file", "cyclonedx-bom/src/models/bom.rs:validate"]}
{"id": "C65", "title": "Generated JSON SBOMs conform to the CycloneDX JSON schema", "statement": "Every JSON file that a release build of cargo-cyclonedx writes for a workspace is accepted by the JSON schema that CycloneDX publishes for the version of the specification the user asked for (1.3, 1.4 or 1.5): every member has a name and a value that the schema allows, all required members are there, and lists that must not repeat an entry do not.", "quantifier": "all workspaces (cargo metadata with non-empty package ids and each dependency listed once), configurations, environments, spec versions and files of the run", "why_tests_cant": "The schema must accept the output for every dependency graph, author list, license, URL and target; tests validate a handful of fixed projects.", "anchors": ["cargo-cyclonedx/src/generator.rs: create_bom, write_to_files", "cyclonedx-bom/src/models/bom.rs: output_as_json", "cyclonedx-bom/test-utils/schema/bom-1.{3,4,5}.schema.json"]}
{"id": "C66", "title": "A BOM that passes validation is written as JSON that conforms to the schema of the version", "statement": "If a BOM passes validation for a version of the specification, then what is written as JSON for that version is accepted by the JSON schema of CycloneDX for the version.", "quantifier": "all BOMs and spec versions", "why_tests_cant": "Tests write a few fixed BOMs; the member names and the shape of the value have to be right for every combination of optional fields and every value of every type.", "anchors": ["cyclonedx-bom/src/models/bom.rs: output_as_json, validate_version", "cyclonedx-bom/src/specs", "cyclonedx-bom/test-utils/schema"]}
{"id": "C67", "title": "Written JSON never repeats a member name", "statement": "Whatever BOM is written as JSON, and in whatever version, no object in the document, at any depth, has two members of the same name; so every JSON reader sees the same values, whether it keeps the first or the last of repeated members.", "quantifier": "all BOMs and spec versions", "why_tests_cant": "A repeated name can come from flattened structures and renamed members that only some combinations of optional fields show; parsers used in tests silently keep one of the values.", "anchors": ["cyclonedx-bom/src/models/bom.rs: output_as_json", "cyclonedx-bom/src/specs (serde derives, rename, flatten)"]}
{"id": "C68", "title": "A document that was read can be written and read again without a change", "statement": "If the library reads a JSON document, then it can write the result as JSON, in the version of the document and in every later version, and reading what was written gives the same BOM again (with the version it was written in). So passing a document through the library more than once changes nothing, and upgrading a document to a later version loses nothing of what was read.", "quantifier": "all JSON documents that the reader accepts, all versions not older than the version of the document", "why_tests_cant": "It must hold for every accepted document: every combination of members, unknown enumeration values and nested elements; tests do this for a few documents.", "anchors": ["cyclonedx-bom/src/models/bom.rs: parse_from_json, output_as_json", "cyclonedx-bom/src/specs"]}
{"id": "C69", "title": "A run only touches SBOM files", "statement": "Whatever happens in a run of cargo cyclonedx (success, an error, a panic, or the process being stopped at any point), the only files that can have changed lie in the directory of the manifest of a workspace member and have a name ending in .json or .xml according to the format asked for. Manifests, lock files and Rust sources are never touched.", "quantifier": "all command lines, environments, cargo metadata, file system contents, failures and stopping points", "why_tests_cant": "Tests look at the files they expect; they cannot try every failure and every point at which the process can die.", "anchors": ["cargo-cyclonedx/src/main.rs: main, generate_sboms", "cargo-cyclonedx/src/generator.rs: write_to_files, write_to_file, filename"]}
{"id": "C70", "title": "Files after a failed or interrupted run", "statement": "If the options, the configuration, cargo or the generation of any SBOM fails, no file has changed. Otherwise, whenever a run fails or is stopped, the documents are written in order up to some point: those before are complete, the one at that point is untouched or damaged, all other files are as before. If a run reports success, all documents are complete. No two documents of a run go to the same file.", "quantifier": "all runs on consistent metadata with distinct member directories, all failures of file operations, all stopping points", "why_tests_cant": "It quantifies over all crash points and all combinations of failing file operations.", "anchors": ["cargo-cyclonedx/src/main.rs: main", "cargo-cyclonedx/src/generator.rs: create_sboms, write_to_files, write_to_file, filename", "cargo-cyclonedx/src/cli.rs: Args (conflicts_with)"]}
{"id": "C71", "title": "A run on a consistent workspace goes through", "statement": "On consistent metadata a run does not panic and no SBOM is refused: it only fails if the file system fails or it is stopped, and otherwise succeeds (a debug build needs in addition what it asserts). After a successful run with JSON output, every workspace member has a complete SBOM file next to its manifest, and the library reads from it the BOM that was generated, about this member and in the version asked for; with per-artifact output this holds for every artifact file.", "quantifier": "all command lines, workspaces with consistent metadata and file systems", "why_tests_cant": "The composition of all stages must hold for every workspace and every combination of options.", "anchors": ["cargo-cyclonedx/src/main.rs: main", "cargo-cyclonedx/src/generator.rs: create_sboms, write_to_files", "cyclonedx-bom/src/models/bom.rs: parse_from_json"]}
{"id": "C72", "title": "Running again repairs an interrupted run", "statement": "With SOURCE_DATE_EPOCH set, running again after a run that failed or was stopped at any point gives exactly the files that an undisturbed run would have given, whatever clock and random source say. Running again after a successful run changes nothing.", "quantifier": "all runs, all stopping points and failures of the first run, all clocks and random sources", "why_tests_cant": "All crash points and all pairs of clocks.", "anchors": ["cargo-cyclonedx/src/main.rs: main", "cargo-cyclonedx/src/generator.rs: write_to_file, create_bom, create_metadata"]}
{"id": "C73", "title": "Every document that conforms to the schema can be read", "statement": "A JSON document that conforms to the published schema of its version and is labelled with that version is read by the library without an error, as a BOM of that version.", "quantifier": "all JSON documents of versions 1.3, 1.4 and 1.5 that conform to the schema of their version", "why_tests_cant": "The schema accepts infinitely many documents of unbounded depth; a test set shows only that some of them are read.", "anchors": ["cyclonedx-bom/src/models/bom.rs: parse_from_json, parse_json_value, parse_from_json_with_version", "cyclonedx-bom/src/specs: all Deserialize implementations", "cyclonedx-bom/test-utils/schema/bom-1.3.schema.json, bom-1.4.schema.json, bom-1.5.schema.json"]}
{"id": "C74", "title": "Reading a JSON document loses nothing", "statement": "What a conforming JSON document says is still there after it was read: writing the BOM in the same version gives the same JSON value, up to the order of members and the spelling of numbers.", "quantifier": "all JSON documents that conform to the schema of their version", "why_tests_cant": "Every member that the schema allows, in every combination and at every depth, would have to be tried.", "anchors": ["cyclonedx-bom/src/models/bom.rs: parse_from_json, output_as_json_v1_3, output_as_json_v1_4, output_as_json_v1_5", "cyclonedx-bom/src/specs: all Deserialize and Serialize implementations"]}
{"id": "C75", "title": "What conversion to a version's structures keeps, and that it is what is written and read", "statement": "Converting a BOM to the structures of a specification version and back gives the BOM without what the version lacks exactly if its enumeration values are read back from the names they are written under. The conversion to 1.4 and 1.5 never fails, and to 1.3 it fails exactly if writing 1.3 fails. Writing JSON writes the converted structures, and reading JSON converts the structures that are read.", "quantifier": "all BOMs, all specification versions, all JSON values", "why_tests_cant": "Every combination of fields and enumeration values at every depth, in each of the three versions, would have to be tried.", "anchors": ["cyclonedx-bom/src/specs: all From and TryFrom implementations between models and specification types", "cyclonedx-bom/src/models/bom.rs: parse_from_json, output_as_json_v1_3, output_as_json_v1_4, output_as_json_v1_5"]}
{"id": "C76", "title": "An XML document that was read can be written and read again without a change", "statement": "If the library reads an XML document, then it can write the result as XML, in the version of the document and in every later version, and reading what was written gives the same BOM again (with the version it was written in). So passing an XML document through the library more than once changes nothing, and upgrading it to a later version loses nothing of what was read.", "quantifier": "all XML documents that the reader of a version accepts, all versions not older than that version", "why_tests_cant": "It must hold for every accepted document: every combination of elements, attributes, texts and nesting, including elements in any order and repeated elements; tests do this for a few documents.", "anchors": ["cyclonedx-bom/src/models/bom.rs: parse_from_xml_with_version, output_as_xml", "cyclonedx-bom/src/xml.rs", "cyclonedx-bom/src/specs"]}
{"id": "C77", "title": "Exactly which documents come back from JSON", "statement": "Writing a BOM as JSON of a specification version and reading the result gives the BOM back, without what the version lacks, exactly if every enumeration value in it is read back from its name, numbers are in the range of their types, no signature is a chain, no 1.5 service has data flows, components have a version when 1.3 is written, and components and services are nested no deeper than the JSON reader allows. Any BOM that violates one of these conditions, anywhere in it, is not written, cannot be read again or comes back changed.", "quantifier": "all BOMs, all specification versions", "why_tests_cant": "The condition must be found in every part of a document at every depth, and each direction must hold for every document; tests try a few values of a few parts.", "anchors": ["cyclonedx-bom/src/models/bom.rs: output_as_json, parse_from_json, parse_from_json_with_version", "cyclonedx-bom/src/specs: Serialize and Deserialize derives and conversions"]}
{"id": "C78", "title": "Exactly which documents come back from XML", "statement": "Writing a BOM as XML of a specification version and reading the result gives the BOM back, without what the version lacks, exactly if it satisfies a condition that is checked part by part: texts have no white space at their ends and are not empty where the reader insists on content, CDATA texts do not contain their own end mark, enumeration values are read back from their names, numbers are in range and scores are read back from their printed form, lists that would be mistaken for something else are not empty, components and services are not nested too deep, and the parts that the XML writers leave out or write under another name (signatures, annotations, licensing, occurrences, call stacks, identities, proofs of concept, tasks of workflows and others) are absent. Any BOM that violates one of these conditions, anywhere in it, is not written, cannot be read again or comes back changed.", "quantifier": "all BOMs, all specification versions", "why_tests_cant": "The condition must be found in every part of a document at every depth, and each direction must hold for every document; tests try a few values of a few parts.", "anchors": ["cyclonedx-bom/src/models/bom.rs: output_as_xml, parse_from_xml_with_version", "cyclonedx-bom/src/specs: ToXml and FromXml implementations", "cyclonedx-bom/src/xml.rs"]}
{"id": "C79", "title": "A validation report points to the violations", "statement": "The report of a validation has messages exactly at the places of the violations in the document: following the field names and list positions of a message leads to an element that violates its rule (or to the repeated element of a list, or to the name of the reference check that failed), and for every violation in the parts that validation looks at there is a message at its place.", "quantifier": "all BOMs, all specification versions, all places", "why_tests_cant": "Every kind of violation at every place, at any depth and list position, and every combination of violations would have to be tried; tests compare a few reports.", "anchors": ["cyclonedx-bom/src/validation.rs: ValidationContext, ValidationResult, ValidationErrorsKind", "cyclonedx-bom/src/models: all validate_version implementations"]}
{"id": "C80", "title": "The order of members does not matter when reading JSON", "statement": "Two JSON documents that differ only in the order of the members of objects, at any depth, are read as the same BOM by parse_from_json, or rejected with the same kind of error. In particular a BOM that is written, reordered in any way and read again comes back as if it had not been reordered. The readers for a given version do the same as long as the order of alternative members (id and name of a license; version, range and undefined range of something affected) is kept.", "quantifier": "all JSON documents, all reorderings at all depths, all specification versions", "why_tests_cant": "The orders of the members of all objects of all documents are too many to try; each reader of each part has to be independent of the order.", "anchors": ["cyclonedx-bom/src/models/bom.rs: parse_from_json, parse_json_value, parse_from_json_v1_3, parse_from_json_v1_4, parse_from_json_v1_5", "cyclonedx-bom/src/specs: Deserialize implementations", "cyclonedx-bom/src/specs/common/license.rs: LicenseIdentifier"]}
{"id": "C81", "title": "The JSON readers agree", "statement": "parse_from_json and the reader for the version that the document is labelled with give the same result. This holds for every document that the library writes. If a member is given twice, parse_from_json reads the document as if only the last of them were there, and the reader for the version rejects the document if it is a member of the document that the version has.", "quantifier": "all JSON documents, all BOMs, all specification versions", "why_tests_cant": "The two readers take different ways through the JSON library, and have to be compared on all documents.", "anchors": ["cyclonedx-bom/src/models/bom.rs: parse_from_json, parse_json_value, parse_from_json_with_version, output_as_json"]}
{"id": "C82", "title": "Members that the format does not have are ignored", "statement": "Adding members with names that no part of the format has to objects of a JSON document, at any depth and with any values, does not change how the document is read, by parse_from_json as by the readers for a version. In particular what is written comes back also after such additions.", "quantifier": "all JSON documents, any number of additional members at any places with any values, all specification versions", "why_tests_cant": "Every reader of every part has to ignore what it does not know; tests try few parts and few names.", "anchors": ["cyclonedx-bom/src/models/bom.rs: parse_from_json, parse_from_json_with_version", "cyclonedx-bom/src/specs: Deserialize implementations", "cyclonedx-bom/src/specs/common/license.rs: LicenseChoice"]}
{"id": "C83", "title": "XML documents have the elements of the format in its order", "statement": "In every document that is written as XML, each element has only child elements and attributes that the format has for it in the version written, and the child elements come in the order of the format. In particular this holds for every XML file that cargo cyclonedx writes.", "quantifier": "all documents, all specification versions; all workspaces and configurations for cargo cyclonedx", "why_tests_cant": "There are about 150 kinds of elements and any subset of their children can be present; tests write few combinations, and reading back what was written does not show names or an order that other tools reject.", "anchors": ["cyclonedx-bom/src/models/bom.rs: output_as_xml", "cyclonedx-bom/src/specs: ToXml implementations", "cyclonedx-bom/tests/spec"]}
{"id": "C84", "title": "Elements built with the constructors are valid", "statement": "What a public constructor of the library builds passes validation for a version exactly if the values given are allowed there: a component if its type is one of the version, whatever its name and version are; a license with an identifier if the identifier is an SPDX license; an external reference if its type is known and its address is a URI, or a BOM-Link from 1.5 on; a service or organization if its name has no line break or tab; contacts, properties, tools, named licenses and vulnerabilities always. The texts given are the texts of the element, up to line breaks and tabs. The checked conversions (try_from, UrnUuid::new) accept exactly what validation accepts. A document of such elements is valid if they are and no bom-ref is used twice.", "quantifier": "all arguments of the constructors, all specification versions, all lists of elements", "why_tests_cant": "Arguments are arbitrary texts; the documentation examples try one each.", "anchors": ["cyclonedx-bom/src/models: new, license, expression, named_license, license_id, single, chain, signers", "cyclonedx-bom/src/external_models/uri.rs: Uri::try_from", "cyclonedx-bom/src/external_models/date_time.rs: DateTime::try_from", "cyclonedx-bom/src/external_models/spdx.rs: SpdxIdentifier", "cyclonedx-bom/src/models/bom.rs: UrnUuid::new, Bom::default"]}
{"id": "C85", "title": "XML documents that conform to the format can be read", "statement": "Every XML document that conforms to the XML schema of a version, with its child elements in the order of the schema or in any other order, is accepted by parse_from_xml_with_version for that version.", "quantifier": "all XML documents that conform to the schema, all specification versions", "why_tests_cant": "The schema has about 150 types of elements with optional, repeated and alternative children; the example documents in the repository contain few of the combinations.", "anchors": ["cyclonedx-bom/src/models/bom.rs: parse_from_xml_with_version", "cyclonedx-bom/src/specs: FromXml implementations", "cyclonedx-bom/src/xml.rs", "cyclonedx-bom/tests/spec"]}
{"id": "C86", "title": "Written XML documents are valid against the schema", "statement": "Every XML document that the library or cargo cyclonedx writes is valid against the XML schema of its version: every element has the child elements of its type in that order and number, a text of that type, all required attributes and no attribute that the type does not have or that is there twice.", "quantifier": "all documents that can be written, all specification versions, all workspaces", "why_tests_cant": "Validity concerns every element in every document; snapshot tests compare a few documents with what the library wrote before, not with the schema, and the order of children only shows when several optional fields are there at once.", "anchors": ["cyclonedx-bom/src/models/bom.rs: output_as_xml_v1_3, output_as_xml_v1_4, output_as_xml_v1_5", "cyclonedx-bom/src/specs: ToXml implementations", "cargo-cyclonedx/src/generator.rs: write_to_file", "cyclonedx-bom/tests/spec"]}
{"id": "C87", "title": "Reading XML does not depend on attribute order, unknown attributes or prefixes", "statement": "Two XML documents whose elements have the same names, texts and attributes of the format give the same result, whether a document or an error. The order of attributes, attributes that the format does not have and the prefix that stands for the namespace of the format make no difference.", "quantifier": "all pairs of XML documents that differ only in this, also malformed ones, all specification versions", "why_tests_cant": "Tests read documents as this library writes them: attributes in one order, no unknown attributes, no prefixes. Whether an attribute has an influence concerns every element in every document.", "anchors": ["cyclonedx-bom/src/xml.rs: attribute_or_error, optional_attribute, closing_tag_or_error, inner_text_or_none, expected_namespace_or_error", "cyclonedx-bom/src/models/bom.rs: parse_from_xml_with_version", "cyclonedx-bom/src/specs: FromXml implementations"]}
{"id": "C88", "title": "The order of child elements does not change what XML is read as", "statement": "Two XML documents of the format that differ only in the order of child elements with different roles are read by parse_from_xml_with_version as the same document, although the schema prescribes an order. In particular every document in another order is read as the document that has the order of the schema. Elements of a list keep their order.", "quantifier": "all pairs of conforming XML documents that differ only in the order of children, at any depth; all specification versions", "why_tests_cant": "There are as many orders as permutations of the children of every element at every depth; tests have the children in one order.", "anchors": ["cyclonedx-bom/src/models/bom.rs: parse_from_xml_with_version", "cyclonedx-bom/src/specs: FromXml implementations", "cyclonedx-bom/src/xml.rs: read_list_tag, read_lax_validation_list_tag"]}
{"id": "C89", "title": "Converting a document between JSON and XML keeps it", "statement": "A document that the library read from one format and that is written in the other one, in its own version or a later one, is read back as the same BOM exactly if it satisfies the condition of C77 (to JSON) or of C78 (to XML); converting it back then gives the same document. JSON keeps everything that XML keeps, apart from infinite scores, chains of signatures and data flows of version 1.5.", "quantifier": "all documents that the readers accept, all BOMs, all versions not older than that of the document", "why_tests_cant": "It compares two writers and two readers on every part of every document; tests convert a few examples and do not compare the results.", "anchors": ["cyclonedx-bom/src/models/bom.rs: parse_from_json, parse_from_xml_with_version, output_as_json, output_as_xml", "cyclonedx-bom/src/specs"]}
{"id": "C90", "title": "Every field is written under its own name, and read from there", "statement": "In the JSON and the XML that output_as_json and output_as_xml write, the value of every field of the public structures that the version has is under the member, attribute or element that belongs to this field, and the parsers fill the field from there. No field is written or read in the place of another one. The names are those of the format, except for ten members of JSON (bomRef in eight structures, confidence_interval, size_allocated) and two attributes of XML (the content type of an attachment and the description of a data flow, which are written under the name of another attribute).", "quantifier": "all BOMs, all three specification versions, both formats; reading: all BOMs that the format keeps", "why_tests_cant": "A round trip cannot tell a writer and a reader that exchange two fields of the same type from correct ones, and snapshots contain few of the combinations of fields at every depth.", "anchors": ["cyclonedx-bom/src/models/bom.rs: output_as_json, output_as_xml, parse_from_json, parse_from_xml_with_version", "cyclonedx-bom/src/specs: ToXml implementations, serde attributes"]}
{"id": "C91", "title": "Reading gives only what the version of the document has", "statement": "What parse_from_json, parse_from_json_with_version and parse_from_xml_with_version return for a document of version 1.3 has, on every level, no field that came with version 1.4 or 1.5, and for a document of version 1.4 no field that came with version 1.5, whatever members, elements and attributes the document contains. So writing it again in the same or a later version leaves nothing out because of the version.", "quantifier": "all JSON values, all sequences of XML events, all three versions, every part of the result at any depth", "why_tests_cant": "Documents can have members of later versions at any depth, and components and services nest without bound; tests read documents that have only what their version has.", "anchors": ["cyclonedx-bom/src/models/bom.rs: parse_from_json, parse_from_json_with_version, parse_from_xml_with_version", "cyclonedx-bom/src/specs/common, v1_3, v1_4, v1_5: From conversions to models, FromXml implementations"]}
{"id": "C92", "title": "The command line means what its options say", "statement": "cargo cyclonedx accepts a command line exactly if its arguments spell options of the list (by name or letter, with the value after =, joined, or as the next argument), no option that holds one value is repeated, every value is one that the option has, and the settings do not conflict (--all with --top-level, --override-filename with --describe). The settings are then those that the options give. The order and the spelling of options do not matter, apart from the order of the values of repeated ones. Every combination of settings without a conflict can be asked for. A command line that is not accepted leads to a run that does not succeed and changes no file. -v shows one level more each time, -qq nothing.", "quantifier": "all lists of arguments, all settings, all file systems", "why_tests_cant": "There are unboundedly many command lines, orders and spellings; tests try a few.", "anchors": ["cargo-cyclonedx/src/cli.rs: Opts, Args", "cargo-cyclonedx/src/main.rs: main, setup_logging", "cargo-cyclonedx/src/format.rs: Format::from_str", "cargo-cyclonedx/src/config.rs: Describe"]}
{"id": "C93", "title": "Validity in several versions", "statement": "A BOM that validate_version accepts for a version is accepted for a later one exactly if, when the later one is 1.5, each list of licenses in it holds named licenses only or is a single expression. A BOM that is accepted for 1.5 is accepted for an earlier version exactly if nothing in it came with 1.5: an organizational bom-ref, a BOM-Link, a new component type, aggregate type or score method, a formula, or tools given as an object. Versions 1.3 and 1.4 accept the same BOMs.", "quantifier": "all BOMs, all pairs of versions", "why_tests_cant": "The parts that tell the versions apart can occur at any depth, in components, services, pedigrees and tools; tests validate a few BOMs in one version.", "anchors": ["cyclonedx-bom/src/models/bom.rs: validate_version", "cyclonedx-bom/src/models/license.rs: Validate for Licenses", "cyclonedx-bom/src/models/component.rs: validate_classification", "cyclonedx-bom/src/models/composition.rs: validate_aggregate_type", "cyclonedx-bom/src/models/external_reference.rs: validate_bom_link", "cyclonedx-bom/src/models/bom.rs: validate_bom_ref", "cyclonedx-bom/src/models/tool.rs: Validate for Tools"]}
{"id": "C94", "title": "A valid BOM is still valid after it is written and read", "statement": "If validate_version accepts a BOM for a version, and the BOM is written in that version as JSON or XML and read again, then validate_version accepts what is read. What the version does not have is left out when writing, and leaving it out makes nothing invalid that was valid.", "quantifier": "all BOMs that the format keeps, all three versions, both formats", "why_tests_cant": "What is left out depends on the version and can be at any depth, and references between parts of the BOM can lose their target; tests validate BOMs before writing or after reading, not both.", "anchors": ["cyclonedx-bom/src/models/bom.rs: validate_version, output_as_json, output_as_xml, parse_from_json, parse_from_xml_with_version", "cyclonedx-bom/src/models/bom.rs: validate_vulnerabilities", "cyclonedx-bom/src/specs/common/bom.rs: TryFrom<models::bom::Bom>"]}
{"id": "C95", "title": "Converting a document to another version", "statement": "A document that is converted to an older version in steps, each written as a file and read again, ends up as the same JSON and XML as one that is converted at once. A document that is written in a newer version and read again is the same but for its version, and written in the old version it gives the old file again.", "quantifier": "all BOMs that the format keeps, all pairs of versions, both formats", "why_tests_cant": "What a version lacks can occur in any structure and at any depth, and the code decides about each field on its own; tests convert between no two versions.", "anchors": ["cyclonedx-bom/src/models/bom.rs: output_as_json, output_as_xml, parse_from_json, parse_from_xml_with_version", "cyclonedx-bom/src/specs/common/bom.rs: TryFrom<models::bom::Bom>, From<Bom>", "cyclonedx-bom/src/specs/common/tool.rs: TryFrom<models::tool::Tools>", "cyclonedx-bom/src/specs/common/service.rs: From<models::service::Service>"]}
{"id": "C96", "title": "Reading XML comes to an end", "statement": "Whatever events the XML library reports, also of documents that are not well-formed or break off, parse_from_xml_with_version returns a BOM or an error after at most as many steps as there are events: every turn of every reader consumes something, gives nothing back, and leaves what it has not consumed as it is. Only documents with more events than the stack has room for nested components or services exhaust the stack; for all others, and for JSON documents that are not nested deeper, the result does not depend on the size of the stack.", "quantifier": "all sequences of XML events, all readers, all three versions", "why_tests_cant": "A reader that does not advance shows only on input that reaches it in the wrong state; tests read complete documents.", "anchors": ["cyclonedx-bom/src/xml.rs: read_list_tag, read_lax_validation_tag, read_lax_validation_list_tag, read_simple_tag", "cyclonedx-bom/src/specs/common/signature.rs: Signature::read_xml_element", "cyclonedx-bom/src/specs/common/bom.rs: read_xml_document", "cyclonedx-bom/src/specs: all FromXml implementations"]}
{"id": "C97", "title": "The JSON readers of the versions agree on what the versions share", "statement": "If parse_from_json_with_version accepts a document as one version, then for an earlier version it accepts the document exactly if (1.3 only) every component has a version, tools are given as a list and data of services as classifications; and what it reads is what that version has of the BOM, with everything newer left out on every level. The same holds for parse_json_value when the specVersion of the document is set back to an earlier version. Written in the earlier version, both results give the same file.", "quantifier": "all JSON documents, all pairs of versions", "why_tests_cant": "A field that one version's reader treats differently shows only on documents that have it; tests read documents of each version with the reader of that version.", "anchors": ["cyclonedx-bom/src/models/bom.rs: Bom::parse_from_json_with_version, parse_json_value, parse_from_json_v1_3, parse_from_json_v1_4, parse_from_json_v1_5", "cyclonedx-bom/src/specs: all types with #[versioned] fields", "cyclonedx-bom/src/specs/common/tool.rs: Tools", "cyclonedx-bom/src/specs/common/service.rs: Data"]}
{"id": "C98", "title": "Written in a later version, a document is the same but for the version", "statement": "If a BOM has nothing that came later than a version (in particular if it was read from a JSON or XML document of that version), then writing it in a later version gives the file of that version with nothing changed but the version: in JSON the member specVersion, in XML the namespace of the root. Members, elements, attributes and texts are the same, in the same order. For any BOM, the file of an earlier version is in this sense what the later version writes of the part that the earlier version has.", "quantifier": "all BOMs, all documents that can be read, all pairs of versions, both formats", "why_tests_cant": "The writers of each version are generated separately from annotated code; one field whose writer, name or position depends on the version by mistake is seen only for documents that have it, in that pair of versions.", "anchors": ["cyclonedx-bom/src/models/bom.rs: Bom::output_as_json, output_as_xml", "cyclonedx-bom/src/specs: all types with #[versioned] fields", "cyclonedx-bom-macros/src/lib.rs: versioned"]}
{"id": "C99", "title": "Files tell documents apart", "statement": "Two BOMs are written as the same JSON file, or the same XML file, exactly if the files are of the same version and the BOMs have the same parts of this version; so the formats agree on which BOMs are the same. Any two JSON files that cargo-cyclonedx writes, in any runs, are the same only if the SBOMs are.", "quantifier": "all pairs of BOMs and versions; all pairs of runs on any workspaces", "why_tests_cant": "A collision needs two documents that differ in just the part that is lost; comparing files of a few documents finds none.", "anchors": ["cyclonedx-bom/src/models/bom.rs: Bom::output_as_json, output_as_xml", "cargo-cyclonedx/src/generator.rs: write_to_file"]}
{"id": "C100", "title": "Options for files do not change what the SBOMs say", "statement": "The options --format, --spec-version, --describe and --target-in-filename have no influence on the SBOMs that cargo-cyclonedx generates, nor on whether generating them fails; nor has --override-filename with a name that is accepted. A run with a later --spec-version does the same file operations in the same order as one with an earlier version, and every file it writes differs only in the version: the member specVersion in JSON, the namespace in XML. This also holds for runs that fail or are interrupted.", "quantifier": "all environments, workspaces, options and pairs of versions; all failures and interruptions of a run", "why_tests_cant": "An influence of an option on unrelated parts of the SBOM shows only for particular combinations of options and workspaces; tests compare a few of them.", "anchors": ["cargo-cyclonedx/src/main.rs: main, generate_sboms, resolve_config", "cargo-cyclonedx/src/generator.rs: SbomGenerator::create_sboms, GeneratedSbom::write_to_files, write_to_file", "cargo-cyclonedx/src/cli.rs: Args::as_config"]}
{"id": "C101", "title": "Each option changes only what it is about", "statement": "The options for licenses change nothing in the generated SBOMs but the licenses of components, and nothing about whether generation fails; names given with --license-accept-named change nothing at all. Next to a run that lists all dependencies, --top-level and --no-build-deps only leave components out: there are as many SBOMs, each about the same package with the same metadata and serial number, and every component in them is, to the last field, a component of the full SBOM. The options for verbosity have no influence on the files, provided that cargo's answer does not depend on them.", "quantifier": "all environments, workspaces and options", "why_tests_cant": "An influence of an option on unrelated parts of the SBOM shows only for particular combinations of options and workspaces; tests compare a few of them.", "anchors": ["cargo-cyclonedx/src/main.rs: generate_sboms, resolve_config, get_metadata", "cargo-cyclonedx/src/generator.rs: SbomGenerator::create_sboms, create_bom, create_component, get_licenses", "cargo-cyclonedx/src/cli.rs: Args::as_config"]}
{"id": "C102", "title": "An SBOM depends only on what the package uses", "statement": "The SBOM of a workspace member depends only on the packages it uses, directly or through others, and on their dependencies other than development dependencies. If two answers of `cargo metadata` agree on these, the SBOM of the member is the same, component by component and edge by edge, whatever other packages and workspace members there are and whatever the development dependencies are.", "quantifier": "all pairs of consistent workspaces that agree on what the member uses, all environments and configurations", "why_tests_cant": "It compares all pairs of dependency graphs that differ in unrelated parts; an unrelated package can leak into an SBOM through the maps that are shared by all members only in particular graphs.", "anchors": ["cargo-cyclonedx/src/generator.rs: SbomGenerator::create_sboms, index_dep_kinds, all_dependencies, top_level_dependencies, create_bom"]}
{"id": "C103", "title": "More dependencies never remove a component", "statement": "If dependencies are only added to a workspace, every component listed in the SBOM of a member stays listed, with and without --top-level and --no-build-deps, and a component that was required stays required.", "quantifier": "all pairs of consistent workspaces where one has all dependencies of the other, all environments and configurations", "why_tests_cant": "It compares all pairs of dependency graphs; a traversal that stops early at a package it has seen on another path loses components only in particular graphs.", "anchors": ["cargo-cyclonedx/src/generator.rs: SbomGenerator::create_sboms, index_dep_kinds, all_dependencies, top_level_dependencies"]}
{"id": "C104", "title": "A package is described the same way in all SBOMs of a workspace", "statement": "Where a package occurs in the SBOMs of two members of a workspace, as the component that an SBOM is about or in its list, it has the same name, version, description, author, external references and licenses in both; the same hashes if both members have the same Cargo.lock; and the same package URL unless it is a local package inside the workspace, whose URL is relative to the member.", "quantifier": "all consistent workspaces, environments and configurations, all pairs of members and all packages in both SBOMs", "why_tests_cant": "The SBOMs of members are generated one after the other from shared maps; that none of them changes what the next says about a package must hold for all graphs and orders of members.", "anchors": ["cargo-cyclonedx/src/generator.rs: SbomGenerator::create_sboms, create_component, create_toplevel_component, get_hashes", "cargo-cyclonedx/src/purl.rs: get_purl"]}
{"id": "C105", "title": "The files for binaries are a part of the files for all targets", "statement": "With --describe=binaries a run writes a part of the files that the same run writes with --describe=all-cargo-targets: in the same order, to the same places and with the same content.", "quantifier": "all workspaces, environments and other options for which both runs come to writing files", "why_tests_cant": "The two modes share a loop that drops targets and builds names on the way; that nothing but the choice of targets differs must hold for all lists of targets of all members.", "anchors": ["cargo-cyclonedx/src/generator.rs: GeneratedSbom::write_to_files, per_artifact_sboms, filename", "cargo-cyclonedx/src/config.rs: Describe"]}
{"id": "C106", "title": "The dependency section connects what the SBOM lists", "statement": "In every generated SBOM, in both dependency modes, the dependency section leads from the component that the SBOM is about to every component in its list, and to nothing else: no component is an orphan. When all dependencies are listed, the section leads from one package to another exactly if the first depends on the second, directly or not, through retained dependencies.", "quantifier": "all consistent workspaces, members, configurations and environments; all pairs of listed packages; paths of any length", "why_tests_cant": "The components and the dependency section are built separately; that paths in one are the paths of the resolve graph must hold for all graphs, with cycles, and for paths of any length.", "anchors": ["cargo-cyclonedx/src/generator.rs: create_bom, create_dependencies, all_dependencies, top_level_dependencies, filtered_dependencies"]}
{"id": "C107", "title": "The SBOM of a member is a part of the SBOM of a member that depends on it", "statement": "When all dependencies are listed and the SBOM of one member of a workspace describes another member, then every package that the SBOM of the other member describes is described in the first too, with the same entry in the dependency section; and what is required by a member that is itself required there, is required there.", "quantifier": "all consistent workspaces, environments and configurations with all dependencies, all pairs of members where one depends on the other directly or not", "why_tests_cant": "Each member has its own traversal from its own root; that one traversal contains the other must hold for all graphs, with cycles between members through other packages.", "anchors": ["cargo-cyclonedx/src/generator.rs: SbomGenerator::create_sboms, all_dependencies, index_dep_kinds, create_dependencies"]}
{"id": "C108", "title": "An SBOM names the tool and the platform it was made for", "statement": "All SBOMs of a run name the tool and its version, and in the properties of their metadata the platform that cargo was asked to resolve dependencies for: the triple of CARGO_BUILD_TARGET if it is set, else of --target, else of the host; or, for --target=all, that they are for all targets.", "quantifier": "all workspaces, environments and command lines for which SBOMs are generated; all SBOMs of the run", "why_tests_cant": "The platform goes from three sources through the configuration into the command for cargo and separately into the metadata; that both agree must hold for all combinations.", "anchors": ["cargo-cyclonedx/src/generator.rs: create_metadata", "cargo-cyclonedx/src/main.rs: generate_sboms, resolve_config, get_metadata", "cargo-cyclonedx/src/platform.rs: host_platform"]}
{"id": "C109", "title": "An SBOM says nothing beyond what the tool finds out", "statement": "Every generated SBOM is version 1 of a document with metadata, components and dependencies, and no other section. Its metadata has only a time, the tool, authors, the component it is about, and the platform. Listed components are libraries without nested components, and have no fields but reference, name, version, author, description, scope, hashes, licenses, package URL and external references; the targets of the component it is about have only type, reference, name, version and package URL. No supplier, publisher, copyright, CPE, signature or other claim appears that the tool has no source for.", "quantifier": "all answers of cargo, environments and configurations for which SBOMs are generated; all components and targets", "why_tests_cant": "That no input sets another field must hold for all packages and graphs; tests only show it for the ones they have.", "anchors": ["cargo-cyclonedx/src/generator.rs: create_sboms, create_bom, create_metadata, create_component, create_toplevel_component"]}
