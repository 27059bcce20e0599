# Axioms of the theorems

Written by `scripts/axioms.py` from `#print axioms`.

## Classical.choice, Quot.sound, propext

* `Cdx.Props.C01_kinds`
* `Cdx.Props.C01_scope`
* `Cdx.Props.C02_all_dependencies`
* `Cdx.Props.C03_dependencies_closed`
* `Cdx.Props.C04_edges_exact`
* `Cdx.Props.C05_no_build_deps`
* `Cdx.Props.C06_no_dev_leak`
* `Cdx.Props.C07_top_level`
* `Cdx.Props.C08_order_independent`
* `Cdx.Props.C08_sorted`
* `Cdx.Props.C09_refs_unique`
* `Cdx.Props.C10_reproducible`
* `Cdx.Props.C10_serial_and_time`
* `Cdx.Props.C11_cli_target_loses`
* `Cdx.Props.C11_precedence_partial`
* `Cdx.Props.C11_cli_settings_partial`
* `Cdx.Props.C12_features`
* `Cdx.Props.C12_pieces_unique`
* `Cdx.Props.C12_features_present`
* `Cdx.Props.C13_directory_and_extension`
* `Cdx.Props.C13_no_separator`
* `Cdx.Props.C13_override_checked`
* `Cdx.Props.C13_exact_name`
* `Cdx.Props.C13_artifact_names`
* `Cdx.Props.C14_distinct_files`
* `Cdx.Props.C14_override_collapses`
* `Cdx.Props.C15_artifacts`
* `Cdx.Props.C16_licenses`
* `Cdx.Props.C16_at_most_one`
* `Cdx.Props.C17_targets`
* `Cdx.Props.C19_checksums`
* `Cdx.Props.C19_no_lock`
* `Cdx.Props.C20_external_references`
* `Cdx.Props.C21_name_and_mail`
* `Cdx.Props.C21_name_only`
* `Cdx.Props.C21_dropped_only_for_mail`
* `Cdx.Props.C21_other_kept`
* `Cdx.Props.C21_authors`
* `Cdx.Props.C22_one_per_member`
* `Cdx.Props.C22_no_panic`
* `Cdx.Props.C23_query_and_commit`
* `Cdx.Props.C23_commit_only`
* `Cdx.Props.C23_reference`
* `Cdx.Props.C23_plain`
* `Cdx.Props.C23_qualifier`
* `Cdx.Props.C23_odd_separators`
* `Cdx.Props.C24_reports_exactly_the_failures`
* `Cdx.Props.C24_every_call_performs`
* `Cdx.Props.C24_repeated_field`
* `Cdx.Props.C25_bom_validation_never_panics`
* `Cdx.Props.C25_validate_never_panics`
* `Cdx.Props.C25_element_validation_never_panics`
* `Cdx.Props.C26_list_errors`
* `Cdx.Props.C27_unique_items`
* `Cdx.Props.C28_nonunique_reported_iff`
* `Cdx.Props.C28_nonunique_names`
* `Cdx.Props.C29_dangling_dependencies`
* `Cdx.Props.C29_dangling_compositions`
* `Cdx.Props.C29_composition_vulnerabilities_ignored`
* `Cdx.Props.C30_normalizes`
* `Cdx.Props.C30_validates`
* `Cdx.Props.C30_unchanged`
* `Cdx.Props.C30_idempotent`
* `Cdx.Props.C30_rejects`
* `Cdx.Props.C32_hash_refuted`
* `Cdx.Props.C32_hash_partial`
* `Cdx.Props.C34_urn_uuid`
* `Cdx.Props.C35_selects`
* `Cdx.Props.C35_rejects`
* `Cdx.Props.C35_labels`
* `Cdx.Props.C36_classification`
* `Cdx.Props.C36_component_rejected`
* `Cdx.Props.C36_scoreMethod`
* `Cdx.Props.C36_aggregate_refuted`
* `Cdx.Props.C36_aggregate_partial`
* `Cdx.Props.C37_licenses_1_5`
* `Cdx.Props.C37_licenses_before_1_5`
* `Cdx.Props.C38_reaches_everything_refuted`
* `Cdx.Props.C38_reaches_checked_partial`
* `Cdx.Props.C38_passes_iff_rules_partial`
* `Cdx.Props.C38_element_passes_iff_rules_partial`
* `Cdx.Props.C38_ignores_bom_parts`
* `Cdx.Props.C38_ignores_component_parts`
* `Cdx.Props.C38_ignores_service_signature`
* `Cdx.Props.C38_ignores_lifecycles`
* `Cdx.Props.C38_ignores_vulnerability_parts`
* `Cdx.Props.C39_convert_partial`
* `Cdx.Props.C39_convert15_partial`
* `Cdx.Props.C39_fails_algorithm`
* `Cdx.Props.C39_fails_name`
* `Cdx.Props.C39_json_partial`
* `Cdx.Props.C39_xml_partial`
* `Cdx.Props.C39_written_partial`
* `Cdx.Props.C40_one_root`
* `Cdx.Props.C40_tree`
* `Cdx.Props.C40_namespace`
* `Cdx.Props.C41_xml_partial`
* `Cdx.Props.C41_xml_same_partial`
* `Cdx.Props.C41_signature_lost`
* `Cdx.Props.C41_licensing_lost`
* `Cdx.Props.C41_evidence_lost`
* `Cdx.Props.C41_proof_lost`
* `Cdx.Props.C41_blanks_lost`
* `Cdx.Props.C41_empty_text_rejected`
* `Cdx.Props.C41_task_rejected`
* `Cdx.Props.C41_no_tools`
* `Cdx.Props.C41_author_lost`
* `Cdx.Props.C42_bounded_values`
* `Cdx.Props.C42_bounded_lists`
* `Cdx.Props.C42_bounded_elements`
* `Cdx.Props.C42_bounded_dropping`
* `Cdx.Props.C42_document`
* `Cdx.Props.C42_values_partial`
* `Cdx.Props.C42_lists_partial`
* `Cdx.Props.C42_elements_partial`
* `Cdx.Props.C42_dropping_partial`
* `Cdx.Props.C42_fails`
* `Cdx.Props.C43_anywhere_partial`
* `Cdx.Props.C43_conforming_partial`
* `Cdx.Props.C43_closed`
* `Cdx.Props.C43_namespace`
* `Cdx.Props.C43_document_partial`
* `Cdx.Props.C43_elements_partial`
* `Cdx.Props.C43_lists_partial`
* `Cdx.Props.C44_json_partial`
* `Cdx.Props.C44_json_same_partial`
* `Cdx.Props.C44_chain_lost`
* `Cdx.Props.C44_algorithm_lost`
* `Cdx.Props.C44_data_flow_lost`
* `Cdx.Props.C45_attached_text`
* `Cdx.Props.C45_validates_iff`
* `Cdx.Props.C46_lax_yields_strict`
* `Cdx.Props.C46_generated_expressions`
* `Cdx.Props.C47_classified`
* `Cdx.Props.C47_validates`
* `Cdx.Props.C47_other_urls`
* `Cdx.Props.C48_modules`
* `Cdx.Props.C48_fails`
* `Cdx.Props.C48_impl_items_not_filtered`
* `Cdx.Props.C49_identity`
* `Cdx.Props.C50_package_url`
* `Cdx.Props.C51_target_purl`
* `Cdx.Props.C52_cargo_invocation`
* `Cdx.Props.C52_host_platform`
* `Cdx.Props.C55_mime`
* `Cdx.Props.C55_cpe_refuted`
* `Cdx.Props.C55_cpe_partial`
* `Cdx.Props.C56_serial_valid`
* `Cdx.Props.C56_serial_distinct`
* `Cdx.Props.C56_source_date_epoch`
* `Cdx.Props.C57_exact`
* `Cdx.Props.C57_generated_valid_partial`
* `Cdx.Props.C57_written_exact`
* `Cdx.Props.C57_written_valid_partial`
* `Cdx.Props.C57_bom_link_refuted`
* `Cdx.Props.C58_json`
* `Cdx.Props.C58_xml`
* `Cdx.Props.C60_only_what_the_version_has`
* `Cdx.Props.C60_newest_has_all`
* `Cdx.Props.C60_idempotent`
* `Cdx.Props.C60_lacks`
* `Cdx.Props.C61_attributes_partial`
* `Cdx.Props.C61_attributes15_partial`
* `Cdx.Props.C61_fails`
* `Cdx.Props.C61_fails_attachment`
* `Cdx.Props.C62_accepts_own`
* `Cdx.Props.C62_rejects_others`
* `Cdx.Props.C62_json_takes_others`
* `Cdx.Props.C59_json`
* `Cdx.Props.C63_run_partial`
* `Cdx.Props.C63_xml_partial`
* `Cdx.Props.C63_exact`
* `Cdx.Props.C63_empty_license_file`
* `Cdx.Props.C63_description_changed`
* `Cdx.Props.C64_release_writes`
* `Cdx.Props.C64_debug_exact`
* `Cdx.Props.C64_debug_partial`
* `Cdx.Props.C64_debug_panics`
* `Cdx.Props.C65_generated_conforms`
* `Cdx.Props.C65_once_needed`
* `Cdx.Props.C66_conforms_partial`
* `Cdx.Props.C66_conforms_not_rejected`
* `Cdx.Props.C66_rejected`
* `Cdx.Props.C67_unique_members`
* `Cdx.Props.C68_exact`
* `Cdx.Props.C68_reread_partial`
* `Cdx.Props.C68_fixpoint_partial`
* `Cdx.Props.C68_codified_lost`
* `Cdx.Props.C68_aggregate_lost`
* `Cdx.Props.C68_field_lost`
* `Cdx.Props.C68_infinity_unreadable`
* `Cdx.Props.C69_only_sbom_files`
* `Cdx.Props.C69_sources_untouched`
* `Cdx.Props.C70_failure_leaves_everything`
* `Cdx.Props.C70_distinct_files`
* `Cdx.Props.C70_progress`
* `Cdx.Props.C71_runs_through`
* `Cdx.Props.C71_json_complete`
* `Cdx.Props.C71_json_files`
* `Cdx.Props.C72_rerun_repairs`
* `Cdx.Props.C72_rerun_idempotent`
* `Cdx.Props.C73_conforming_read_partial`
* `Cdx.Props.C73_unreadable`
* `Cdx.Props.C74_kept_partial`
* `Cdx.Props.C74_lost`
* `Cdx.Props.C74_changed`
* `Cdx.Props.C75_survives_iff`
* `Cdx.Props.C75_converts13`
* `Cdx.Props.C75_written`
* `Cdx.Props.C75_read`
* `Cdx.Props.C76_exact`
* `Cdx.Props.C76_reread_partial`
* `Cdx.Props.C76_fixpoint_partial`
* `Cdx.Props.C76_blanks_lost`
* `Cdx.Props.C76_author_lost`
* `Cdx.Props.C76_codified_lost`
* `Cdx.Props.C76_licensing_lost`
* `Cdx.Props.C76_occurrences_lost`
* `Cdx.Props.C76_task_unreadable`
* `Cdx.Props.C77_exact`
* `Cdx.Props.C77_exact_with`
* `Cdx.Props.C77_same`
* `Cdx.Props.C77_numbers`
* `Cdx.Props.C78_exact`
* `Cdx.Props.C78_same`
* `Cdx.Props.C78_lost`
* `Cdx.Props.C79_report_places_partial`
* `Cdx.Props.C79_report_places_exact_partial`
* `Cdx.Props.C79_element_places_partial`
* `Cdx.Props.C79_report_places_fails`
* `Cdx.Props.C80_parse`
* `Cdx.Props.C80_parse_with_partial`
* `Cdx.Props.C80_written`
* `Cdx.Props.C80_order_matters`
* `Cdx.Props.C81_agree_partial`
* `Cdx.Props.C81_written`
* `Cdx.Props.C81_last_counts`
* `Cdx.Props.C81_twice_rejected`
* `Cdx.Props.C81_disagree`
* `Cdx.Props.C82_parse_partial`
* `Cdx.Props.C82_parse_with_partial`
* `Cdx.Props.C82_written_partial`
* `Cdx.Props.C82_fails`
* `Cdx.Props.C83_written`
* `Cdx.Props.C83_same`
* `Cdx.Props.C83_format_partial`
* `Cdx.Props.C83_generated`
* `Cdx.Props.C83_fails`
* `Cdx.Props.C84_component`
* `Cdx.Props.C84_service`
* `Cdx.Props.C84_organization`
* `Cdx.Props.C84_always`
* `Cdx.Props.C84_license`
* `Cdx.Props.C84_reference`
* `Cdx.Props.C84_metadata`
* `Cdx.Props.C84_vulnerability_source`
* `Cdx.Props.C84_rating`
* `Cdx.Props.C84_analysis`
* `Cdx.Props.C84_affected`
* `Cdx.Props.C84_advisory`
* `Cdx.Props.C84_approach`
* `Cdx.Props.C84_signature`
* `Cdx.Props.C84_conversions`
* `Cdx.Props.C84_uri_reference_refuted`
* `Cdx.Props.C84_texts`
* `Cdx.Props.C84_values`
* `Cdx.Props.C84_bomlink`
* `Cdx.Props.C84_range`
* `Cdx.Props.C84_names_refuted`
* `Cdx.Props.C84_document`
* `Cdx.Props.C85_conforming_partial`
* `Cdx.Props.C85_unordered_partial`
* `Cdx.Props.C85_unsupported`
* `Cdx.Props.C86_written_partial`
* `Cdx.Props.C86_generated`
* `Cdx.Props.C86_fails`
* `Cdx.Props.C87_same_partial`
* `Cdx.Props.C87_unknown_attributes`
* `Cdx.Props.C87_attribute_order`
* `Cdx.Props.C87_prefix_partial`
* `Cdx.Props.C87_default_namespace`
* `Cdx.Props.C88_order_partial`
* `Cdx.Props.C88_format_order_partial`
* `Cdx.Props.C88_lists_keep_order`
* `Cdx.Props.C89_json_keeps_more`
* `Cdx.Props.C89_xml_to_json`
* `Cdx.Props.C89_xml_kept`
* `Cdx.Props.C89_back_to_xml`
* `Cdx.Props.C89_json_to_xml`
* `Cdx.Props.C89_there_and_back`
* `Cdx.Props.C89_chain_lost`
* `Cdx.Props.C89_flows_lost`
* `Cdx.Props.C89_infinity_lost`
* `Cdx.Props.C90_json`
* `Cdx.Props.C90_xml`
* `Cdx.Props.C90_json_read`
* `Cdx.Props.C90_xml_read`
* `Cdx.Props.C90_tree`
* `Cdx.Props.C90_misnamed`
* `Cdx.Props.C91_json`
* `Cdx.Props.C91_json_with`
* `Cdx.Props.C91_xml`
* `Cdx.Props.C91_nothing_dropped_json`
* `Cdx.Props.C91_nothing_dropped_xml`
* `Cdx.Props.C92_exact`
* `Cdx.Props.C92_order`
* `Cdx.Props.C92_unknown`
* `Cdx.Props.C92_every`
* `Cdx.Props.C92_refused`
* `Cdx.Props.C92_accepted`
* `Cdx.Props.C93_later`
* `Cdx.Props.C93_earlier`
* `Cdx.Props.C93_same`
* `Cdx.Props.C93_needed`
* `Cdx.Props.C94_exact`
* `Cdx.Props.C94_json_partial`
* `Cdx.Props.C94_xml_partial`
* `Cdx.Props.C94_later`
* `Cdx.Props.C94_read_json`
* `Cdx.Props.C94_read_xml`
* `Cdx.Props.C94_read_same`
* `Cdx.Props.C94_refuted`
* `Cdx.Props.C95_down_json`
* `Cdx.Props.C95_down_xml`
* `Cdx.Props.C95_up_json`
* `Cdx.Props.C95_up_xml_partial`
* `Cdx.Props.C95_up_xml_refuted`
* `Cdx.Props.C96_values`
* `Cdx.Props.C96_lists`
* `Cdx.Props.C96_elements`
* `Cdx.Props.C96_document`
* `Cdx.Props.C96_limit`
* `Cdx.Props.C96_limit_json`
* `Cdx.Props.C97_exact`
* `Cdx.Props.C97_agree`
* `Cdx.Props.C97_relabelled`
* `Cdx.Props.C98_json`
* `Cdx.Props.C98_xml`
* `Cdx.Props.C98_read_json`
* `Cdx.Props.C98_read_xml`
* `Cdx.Props.C98_part`
* `Cdx.Props.C99_json_partial`
* `Cdx.Props.C99_xml_partial`
* `Cdx.Props.C99_formats_partial`
* `Cdx.Props.C99_generated`
* `Cdx.Props.C99_generated_xml_partial`
* `Cdx.Props.C99_collision`
* `Cdx.Props.C100_content`
* `Cdx.Props.C100_override`
* `Cdx.Props.C100_version`
* `Cdx.Props.C100_files`
* `Cdx.Props.C101_licenses`
* `Cdx.Props.C101_dependencies`
* `Cdx.Props.C101_accept_named`
* `Cdx.Props.C101_verbosity`
* `Cdx.Props.C102_local`
* `Cdx.Props.C103_growth`
* `Cdx.Props.C104_uniform`
* `Cdx.Props.C104_local_packages`
* `Cdx.Props.C105_binaries`
* `Cdx.Props.C106_paths`
* `Cdx.Props.C106_no_orphans`
* `Cdx.Props.C107_nested`
* `Cdx.Props.C108_platform`
* `Cdx.Props.C109_nothing_else`

## Quot.sound, propext

* `Cdx.Props.C18_nearest_lock`
* `Cdx.Props.C18_no_lock`
* `Cdx.Props.C33_confidence_partial`
* `Cdx.Props.C53_component_types`
* `Cdx.Props.C53_aggregate_types_partial`
* `Cdx.Props.C54_merge`
* `Cdx.Props.C75_converts`
* `Cdx.Props.C90_clash`
* `Cdx.Props.C92_logging`

## none

* `Cdx.Props.C33_confidence_refuted`

## propext

* `Cdx.Props.C31_classification`
* `Cdx.Props.C31_scope`
* `Cdx.Props.C31_encoding`
* `Cdx.Props.C31_issueClassification`
* `Cdx.Props.C31_patchClassification`
* `Cdx.Props.C31_componentDataType`
* `Cdx.Props.C31_hashAlgorithm`
* `Cdx.Props.C31_licenseType`
* `Cdx.Props.C31_phase`
* `Cdx.Props.C31_approachType`
* `Cdx.Props.C31_dataFlowType`
* `Cdx.Props.C31_impactAnalysisState`
* `Cdx.Props.C31_impactAnalysisJustification`
* `Cdx.Props.C31_impactAnalysisResponse`
* `Cdx.Props.C31_severity`
* `Cdx.Props.C31_status`
* `Cdx.Props.C31_taskType`
* `Cdx.Props.C31_outputType`
* `Cdx.Props.C31_triggerType`
* `Cdx.Props.C31_accessMode`
* `Cdx.Props.C31_volumeMode`
* `Cdx.Props.C31_algorithm_refuted`
* `Cdx.Props.C31_algorithm_partial`
* `Cdx.Props.C31_identityField_refuted`
* `Cdx.Props.C31_identityField_partial`
* `Cdx.Props.C31_aggregateType_refuted`
* `Cdx.Props.C31_aggregateType_partial`
* `Cdx.Props.C31_externalReferenceType_refuted`
* `Cdx.Props.C31_externalReferenceType_partial`
* `Cdx.Props.C31_scoreMethod_refuted`
* `Cdx.Props.C31_scoreMethod_partial`
* `Cdx.Props.C38_ignores_identity_methods`
* `Cdx.Props.C38_ignores_last_updated`
* `Cdx.Props.C42_beyond`
* `Cdx.Props.C53_reference_types_refuted`
* `Cdx.Props.C53_reference_types_partial`
* `Cdx.Props.C53_aggregate_types_refuted`
* `Cdx.Props.C53_phase_kept`
* `Cdx.Props.C84_imprecise`
