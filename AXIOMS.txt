
'Serum.Check.always' depends on axioms: [propext, Classical.choice, Quot.sound] 
'Serum.Check.bodies_met' depends on axioms: [propext, Classical.choice, Quot.sound] 
'Serum.Check.bodies_reported' depends on axioms: [propext, Classical.choice, Quot.sound] 
'Serum.Check.every_order' depends on axioms: [propext, Classical.choice, Quot.sound] 
'Serum.Check.exports_same' depends on axioms: [propext, Classical.choice, Quot.sound] 
'Serum.Check.fine_sound' depends on axioms: [propext, Classical.choice, Quot.sound] 
'Serum.Check.inScope_sound' depends on axioms: [propext, Classical.choice, Quot.sound] 
'Serum.Check.prints' depends on axioms: [propext, Quot.sound] 
'Serum.Check.returnsOnly' depends on axioms: [propext, Classical.choice, Quot.sound] 
'Serum.Check.silentSound' depends on axioms: [propext, Classical.choice, Quot.sound] 
'Serum.Props.Adoption.added' depends on axioms: [propext, Classical.choice, Quot.sound] 
'Serum.Props.Adoption.adopt_effect' depends on axioms: [propext, Quot.sound] 
'Serum.Props.Adoption.adopt_kept' depends on axioms: [propext, Classical.choice, Quot.sound] 
'Serum.Props.Adoption.adopt_unaffected' depends on axioms: [propext, Classical.choice, Quot.sound] 
'Serum.Props.Adoption.bare_untouched' depends on axioms: [propext, Classical.choice, Quot.sound] 
'Serum.Props.Adoption.comparison_unaffected_partial' depends on axioms: [propext, Classical.choice, Quot.sound] 
'Serum.Props.Adoption.declarations_unaffected' depends on axioms: [propext, Classical.choice, Quot.sound] 
'Serum.Props.Adoption.unaffected' depends on axioms: [propext, Classical.choice, Quot.sound] 
'Serum.Props.Adoption.undeclared_untouched' depends on axioms: [propext, Classical.choice, Quot.sound] 
'Serum.Props.Annotations.accepted_iff' depends on axioms: [propext, Classical.choice, Quot.sound] 
'Serum.Props.Annotations.annotation_codes_wellFormed' depends on axioms: [propext, Classical.choice, Quot.sound] 
'Serum.Props.Annotations.effect' depends on axioms: [propext] 
'Serum.Props.Annotations.malformed_reported' depends on axioms: [propext, Classical.choice, Quot.sound] 
'Serum.Props.Annotations.meaning_unique' depends on axioms: [propext, Classical.choice, Quot.sound] 
'Serum.Props.Annotations.no_indicator' depends on axioms: [propext, Quot.sound] 
'Serum.Props.Annotations.removed_and_added' depends on axioms: [propext] 
'Serum.Props.Annotations.several_reported' depends on axioms: [propext, Classical.choice, Quot.sound] 
'Serum.Props.Bodies.analysis_terminates' depends on axioms: [propext, Classical.choice, Quot.sound] 
'Serum.Props.Bodies.annotation_leaks' depends on axioms: [propext, Quot.sound] 
'Serum.Props.Bodies.found_wellFormed' depends on axioms: [propext, Classical.choice, Quot.sound] 
'Serum.Props.Bodies.plan_wellFormed' depends on axioms: [propext, Classical.choice, Quot.sound] 
'Serum.Props.Bodies.returns_independent_partial' depends on axioms: [propext, Classical.choice, Quot.sound] 
'Serum.Props.BodyCodes.body_codes_exact_partial' depends on axioms: [propext, Classical.choice, Quot.sound] 
'Serum.Props.BodyCodes.codes_derived' depends on axioms: [propext, Classical.choice, Quot.sound] 
'Serum.Props.BodyCodes.mismatches_derived_partial' depends on axioms: [propext, Classical.choice, Quot.sound] 
'Serum.Props.BodyCodes.wrong_derived' depends on axioms: [propext, Classical.choice, Quot.sound] 
'Serum.Props.BodyReports.body_exact' depends on axioms: [propext, Classical.choice, Quot.sound] 
'Serum.Props.BodyReports.run_exact' depends on axioms: [propext, Classical.choice, Quot.sound] 
'Serum.Props.CallGraph.body_once' depends on axioms: [propext, Classical.choice, Quot.sound] 
'Serum.Props.CallGraph.cache_is_exact_partial' depends on axioms: [propext, Classical.choice, Quot.sound] 
'Serum.Props.CallGraph.codesOf_least_consistent' does not depend on any axioms 
'Serum.Props.CallGraph.codes_are_least_partial' depends on axioms: [propext, Classical.choice, Quot.sound] 
'Serum.Props.CallGraph.cycle_shares_codes_partial' depends on axioms: [propext, Classical.choice, Quot.sound] 
'Serum.Props.CallGraph.found_derivable' depends on axioms: [propext, Classical.choice, Quot.sound] 
'Serum.Props.CallGraph.found_iff_reached' depends on axioms: [propext, Classical.choice, Quot.sound] 
'Serum.Props.CallGraph.found_reachable' depends on axioms: [propext, Classical.choice, Quot.sound] 
'Serum.Props.CallGraph.literal_called_twice_panics' depends on axioms: [propext] 
'Serum.Props.CallGraph.order_independent_partial' depends on axioms: [propext, Classical.choice, Quot.sound] 
'Serum.Props.CallGraph.order_matters' depends on axioms: [propext] 
'Serum.Props.CallGraph.own_found' depends on axioms: [propext, Classical.choice, Quot.sound] 
'Serum.Props.CallGraph.partly_settled' depends on axioms: [propext] 
'Serum.Props.CallGraph.succeeds_iff' depends on axioms: [propext, Classical.choice, Quot.sound] 
'Serum.Props.CallGraph.success_order_independent' depends on axioms: [propext, Classical.choice, Quot.sound] 
'Serum.Props.CallGraph.terminates' depends on axioms: [propext, Classical.choice, Quot.sound] 
'Serum.Props.CallGraph.transitive_codes_partial' depends on axioms: [propext, Classical.choice, Quot.sound] 
'Serum.Props.Calls.calls_in_run' depends on axioms: [propext, Classical.choice, Quot.sound] 
'Serum.Props.Calls.declared_call' depends on axioms: [propext, Quot.sound] 
'Serum.Props.Calls.local_call' depends on axioms: [propext, Quot.sound] 
'Serum.Props.Calls.undeclared_dot_import' depends on axioms: [propext, Quot.sound] 
'Serum.Props.Calls.undeclared_foreign_call' depends on axioms: [propext, Quot.sound] 
'Serum.Props.Calls.undeclared_method_call' depends on axioms: [propext, Quot.sound] 
'Serum.Props.Claims.analysed_exact' depends on axioms: [propext, Quot.sound] 
'Serum.Props.Claims.claims_exact' depends on axioms: [propext, Classical.choice, Quot.sound] 
'Serum.Props.Claims.empty_results_panic' depends on axioms: [propext] 
'Serum.Props.Claims.exported_codes_are_declared' depends on axioms: [propext, Classical.choice, Quot.sound] 
'Serum.Props.Claims.misplaced_exact' depends on axioms: [propext, Quot.sound] 
'Serum.Props.Claims.not_strict_no_report' depends on axioms: [propext, Classical.choice, Quot.sound] 
'Serum.Props.Claims.positions_agree' depends on axioms: [propext, Classical.choice, Quot.sound] 
'Serum.Props.Claims.strict_only_adds' depends on axioms: [propext, Classical.choice, Quot.sound] 
'Serum.Props.CodeFormat.valid_ascii' depends on axioms: [propext, Classical.choice, Quot.sound] 
'Serum.Props.CodeFormat.valid_iff_pattern' depends on axioms: [propext, Classical.choice, Quot.sound] 
'Serum.Props.CodeSets.add_nil_panics' depends on axioms: [propext] 
'Serum.Props.CodeSets.add_spec' depends on axioms: [propext, Quot.sound] 
'Serum.Props.CodeSets.difference_spec' depends on axioms: [propext, Quot.sound] 
'Serum.Props.CodeSets.sliceToSet_spec' depends on axioms: [propext, Quot.sound] 
'Serum.Props.CodeSets.slice_spec' depends on axioms: [propext, Quot.sound] 
'Serum.Props.CodeSets.union_order_independent' depends on axioms: [propext, Classical.choice, Quot.sound] 
'Serum.Props.CodeSets.union_spec' depends on axioms: [propext, Quot.sound] 
'Serum.Props.CodeSets.value_model_agrees' depends on axioms: [propext, Quot.sound] 
'Serum.Props.CommentMap.above_attached' depends on axioms: [propext, Classical.choice, Quot.sound] 
'Serum.Props.CommentMap.annotation_above' depends on axioms: [propext, Classical.choice, Quot.sound] 
'Serum.Props.CommentMap.attached_once' depends on axioms: [propext, Classical.choice, Quot.sound] 
'Serum.Props.CommentMap.behind_attached' depends on axioms: [propext, Quot.sound] 
'Serum.Props.CommentMap.comments_of_files' depends on axioms: [propext, Classical.choice, Quot.sound] 
'Serum.Props.CommentMap.ex_above' depends on axioms: [propext, Classical.choice, Quot.sound] 
'Serum.Props.CommentMap.ex_behind' depends on axioms: [propext, Classical.choice, Quot.sound] 
'Serum.Props.CommentMap.ex_below' depends on axioms: [propext, Classical.choice, Quot.sound] 
'Serum.Props.CommentMap.ex_elsewhere' depends on axioms: [propext, Quot.sound] 
'Serum.Props.CommentMap.only_near' depends on axioms: [propext, Classical.choice, Quot.sound] 
'Serum.Props.Comments.blank_lines_irrelevant' depends on axioms: [propext, Classical.choice, Quot.sound] 
'Serum.Props.Comments.comment_map' depends on axioms: [propext, Quot.sound] 
'Serum.Props.Comments.constructor_as_written' depends on axioms: [propext, Classical.choice, Quot.sound] 
'Serum.Props.Comments.directive_unseen' depends on axioms: [propext, Quot.sound] 
'Serum.Props.Comments.exported_as_written' depends on axioms: [propext, Classical.choice, Quot.sound] 
'Serum.Props.Comments.interface_as_written' depends on axioms: [propext, Classical.choice, Quot.sound] 
'Serum.Props.Comments.line_comment' depends on axioms: [propext, Classical.choice, Quot.sound] 
'Serum.Props.Comments.marked_not_directive' depends on axioms: [propext, Quot.sound] 
'Serum.Props.Comments.nothing_as_written' depends on axioms: [propext, Classical.choice, Quot.sound] 
'Serum.Props.Comments.source_annotation' depends on axioms: [propext, Classical.choice, Quot.sound] 
'Serum.Props.Comments.source_grammar' depends on axioms: [propext, Classical.choice, Quot.sound] 
'Serum.Props.Comments.source_no_annotation' depends on axioms: [propext, Classical.choice, Quot.sound] 
'Serum.Props.Comments.source_round_trip' depends on axioms: [propext, Classical.choice, Quot.sound] 
'Serum.Props.Comments.style_irrelevant' depends on axioms: [propext, Classical.choice, Quot.sound] 
'Serum.Props.Comments.styles_alike' depends on axioms: [propext, Classical.choice, Quot.sound] 
'Serum.Props.Comments.text_shape' depends on axioms: [propext, Quot.sound] 
'Serum.Props.Components.callees_first' depends on axioms: [propext, Classical.choice, Quot.sound] 
'Serum.Props.Components.components_exact' depends on axioms: [propext, Classical.choice, Quot.sound] 
'Serum.Props.Components.never_panics' depends on axioms: [propext, Classical.choice, Quot.sound] 
'Serum.Props.Conversions.accepted_iff' depends on axioms: [propext, Classical.choice, Quot.sound] 
'Serum.Props.Conversions.chain_partial' depends on axioms: [propext] 
'Serum.Props.Conversions.conversion_to_function_type_crashes' depends on axioms: [propext] 
'Serum.Props.Conversions.every_node_visited' depends on axioms: [propext, Quot.sound] 
'Serum.Props.Conversions.forwarded_results_crash' depends on axioms: [propext] 
'Serum.Props.Conversions.forwarded_return_crashes' depends on axioms: [propext] 
'Serum.Props.Conversions.literal_of_unnamed_pointer_unchecked' depends on axioms: [propext] 
'Serum.Props.Conversions.named_function_type_unchecked' depends on axioms: [propext] 
'Serum.Props.Conversions.nil_and_same_accepted' depends on axioms: [propext] 
'Serum.Props.Conversions.no_crash_partial' depends on axioms: [propext, Classical.choice, Quot.sound] 
'Serum.Props.Conversions.not_transitive' depends on axioms: [propext, Quot.sound] 
'Serum.Props.Conversions.order_independent_partial' depends on axioms: [propext, Classical.choice, Quot.sound] 
'Serum.Props.Conversions.package_checked_partial' depends on axioms: [propext, Classical.choice, Quot.sound] 
'Serum.Props.Conversions.pointer_assertion_checked' depends on axioms: [propext] 
'Serum.Props.Conversions.positions_exact_partial' depends on axioms: [propext, Classical.choice, Quot.sound] 
'Serum.Props.Conversions.range_over_named_pointer_crashes' depends on axioms: [propext] 
'Serum.Props.Conversions.reports_derivable' depends on axioms: [propext, Classical.choice, Quot.sound] 
'Serum.Props.Conversions.reports_exact_partial' depends on axioms: [propext, Classical.choice, Quot.sound] 
'Serum.Props.Conversions.silent_means_acceptable_partial' depends on axioms: [propext, Classical.choice, Quot.sound] 
'Serum.Props.Conversions.smuggled_code_reported_partial' depends on axioms: [propext, Classical.choice, Quot.sound] 
'Serum.Props.Conversions.smuggled_reported_partial' depends on axioms: [propext, Classical.choice, Quot.sound] 
'Serum.Props.Conversions.spread_crashes' depends on axioms: [propext] 
'Serum.Props.Conversions.transitive_partial' does not depend on any axioms 
'Serum.Props.Conversions.undeclared_foreign_accepted' depends on axioms: [propext] 
'Serum.Props.Crash.bodiless_panics' depends on axioms: [propext, Quot.sound] 
'Serum.Props.Crash.body_exact' depends on axioms: [propext, Classical.choice, Quot.sound] 
'Serum.Props.Crash.callee_panics' depends on axioms: [propext, Quot.sound] 
'Serum.Props.Crash.map_index_panics' depends on axioms: [propext, Quot.sound] 
'Serum.Props.Crash.multi_value_argument_panics' depends on axioms: [propext, Quot.sound] 
'Serum.Props.Crash.named_function_type_panics' depends on axioms: [propext, Quot.sound] 
'Serum.Props.Crash.search_exact' depends on axioms: [propext, Classical.choice, Quot.sound] 
'Serum.Props.Crash.search_succeeds_partial' depends on axioms: [propext, Classical.choice, Quot.sound] 
'Serum.Props.Crash.two_fields_panic' depends on axioms: [propext, Quot.sound] 
'Serum.Props.Dependencies.Example.local_changes' depends on axioms: [propext, Classical.choice, Quot.sound] 
'Serum.Props.Dependencies.Example.now_missing' depends on axioms: [propext, Quot.sound] 
'Serum.Props.Dependencies.Smuggling.local_changes' depends on axioms: [propext, Classical.choice, Quot.sound] 
'Serum.Props.Dependencies.Smuggling.monotone' depends on axioms: [propext, Classical.choice, Quot.sound] 
'Serum.Props.Dependencies.Smuggling.now_reported' depends on axioms: [propext, Quot.sound] 
'Serum.Props.Dependencies.changes_local_partial' depends on axioms: [propext, Classical.choice, Quot.sound] 
'Serum.Props.Dependencies.conversions_local_partial' depends on axioms: [propext, Classical.choice, Quot.sound] 
'Serum.Props.Dependencies.conversions_monotone_partial' depends on axioms: [propext, Classical.choice, Quot.sound] 
'Serum.Props.Dependencies.gains_monotone_partial' depends on axioms: [propext, Classical.choice, Quot.sound] 
'Serum.Props.Dependencies.others_unchanged' depends on axioms: [propext, Classical.choice, Quot.sound] 
'Serum.Props.Dependencies.success_partial' depends on axioms: [propext, Classical.choice, Quot.sound] 
'Serum.Props.Edits.body_reports_local' depends on axioms: [propext, Classical.choice, Quot.sound] 
'Serum.Props.Edits.edit_kept' depends on axioms: [propext, Classical.choice, Quot.sound] 
'Serum.Props.Edits.mismatch_local_partial' depends on axioms: [propext, Classical.choice, Quot.sound] 
'Serum.Props.Edits.onlyBodies_of_functions' depends on axioms: [propext, Classical.choice, Quot.sound] 
'Serum.Props.ErrorDocs.bad_entry_refused' depends on axioms: [propext, Classical.choice, Quot.sound] 
'Serum.Props.ErrorDocs.blank_param_refused' depends on axioms: [propext, Classical.choice, Quot.sound] 
'Serum.Props.ErrorDocs.declared_codes_wellFormed' depends on axioms: [propext, Classical.choice, Quot.sound] 
'Serum.Props.ErrorDocs.entry_without_dashes_refused' depends on axioms: [propext, Classical.choice, Quot.sound] 
'Serum.Props.ErrorDocs.grammar_unambiguous' depends on axioms: [propext, Classical.choice, Quot.sound] 
'Serum.Props.ErrorDocs.indentation' depends on axioms: [propext, Quot.sound] 
'Serum.Props.ErrorDocs.malformed_code_refused' depends on axioms: [propext, Classical.choice, Quot.sound] 
'Serum.Props.ErrorDocs.no_blank_line_refused' depends on axioms: [propext, Quot.sound] 
'Serum.Props.ErrorDocs.none_accepted' depends on axioms: [propext, Classical.choice, Quot.sound] 
'Serum.Props.ErrorDocs.none_iff' depends on axioms: [propext, Classical.choice, Quot.sound] 
'Serum.Props.ErrorDocs.parse_fails_iff' depends on axioms: [propext, Classical.choice, Quot.sound] 
'Serum.Props.ErrorDocs.parse_iff_grammar' depends on axioms: [propext, Classical.choice, Quot.sound] 
'Serum.Props.ErrorDocs.prose_after_block' depends on axioms: [propext, Classical.choice, Quot.sound] 
'Serum.Props.ErrorDocs.prose_after_none' depends on axioms: [propext, Classical.choice, Quot.sound] 
'Serum.Props.ErrorDocs.prose_before' depends on axioms: [propext, Quot.sound] 
'Serum.Props.ErrorDocs.repeated_indicator_refused' depends on axioms: [propext, Classical.choice, Quot.sound] 
'Serum.Props.ErrorDocs.second_param_refused' depends on axioms: [propext, Classical.choice, Quot.sound] 
'Serum.Props.ErrorDocs.text_inside_block' depends on axioms: [propext, Classical.choice, Quot.sound] 
'Serum.Props.ErrorDocs.write_read' depends on axioms: [propext, Classical.choice, Quot.sound] 
'Serum.Props.ErrorTypes.code_method_covered_partial' depends on axioms: [propext, Classical.choice, Quot.sound] 
'Serum.Props.ErrorTypes.deferred_result' depends on axioms: [propext, Quot.sound] 
'Serum.Props.ErrorTypes.receiver_reassigned' depends on axioms: [propext, Quot.sound] 
'Serum.Props.ErrorTypes.recorded_exact_partial' depends on axioms: [propext, Classical.choice, Quot.sound] 
'Serum.Props.ErrorTypes.tagging_terminates' depends on axioms: [propext, Classical.choice, Quot.sound] 
'Serum.Props.Extract.constant_accepted_partial' depends on axioms: [propext, Classical.choice, Quot.sound] 
'Serum.Props.Extract.constant_code_partial' depends on axioms: [propext, Classical.choice, Quot.sound] 
'Serum.Props.Extract.constant_collected' depends on axioms: [propext, Classical.choice, Quot.sound] 
'Serum.Props.Extract.constructor_argument' depends on axioms: [propext, Classical.choice, Quot.sound] 
'Serum.Props.Extract.constructor_otherwise' depends on axioms: [propext, Quot.sound] 
'Serum.Props.Extract.key_order' depends on axioms: [propext, Classical.choice, Quot.sound] 
'Serum.Props.Extract.keyed_literal' depends on axioms: [propext, Quot.sound] 
'Serum.Props.Extract.literal_wrapped' depends on axioms: [propext] 
'Serum.Props.Extract.long_code_refused' depends on axioms: [propext, Classical.choice, Quot.sound] 
'Serum.Props.Extract.multi_value_argument_panics' depends on axioms: [propext, Quot.sound] 
'Serum.Props.Extract.positional_eq_keyed' depends on axioms: [propext, Classical.choice, Quot.sound] 
'Serum.Props.Fields.assigned' depends on axioms: [propext, Classical.choice, Quot.sound] 
'Serum.Props.Fields.assigned_codes_partial' depends on axioms: [propext, Classical.choice, Quot.sound] 
'Serum.Props.Fields.nested_assignment_missed' depends on axioms: [propext, Quot.sound] 
'Serum.Props.Fields.parenthesised_assignment_missed' depends on axioms: [propext, Quot.sound] 
'Serum.Props.Imports.Upgrade.met_matters' depends on axioms: [propext, Quot.sound] 
'Serum.Props.Imports.unmet_imports' depends on axioms: [propext, Quot.sound] 
'Serum.Props.Imports.upgraded_dependencies' depends on axioms: [propext, Classical.choice, Quot.sound] 
'Serum.Props.Interfaces.declarations_end' depends on axioms: [propext, Quot.sound] 
'Serum.Props.Interfaces.dot_imported_ignored' depends on axioms: [propext] 
'Serum.Props.Interfaces.local_type_replaces' depends on axioms: [propext] 
'Serum.Props.Interfaces.mismatch_iff_partial' depends on axioms: [propext, Classical.choice, Quot.sound] 
'Serum.Props.Interfaces.mismatches_counted_partial' depends on axioms: [propext, Classical.choice, Quot.sound] 
'Serum.Props.Interfaces.mismatches_exact_partial' depends on axioms: [propext, Classical.choice, Quot.sound] 
'Serum.Props.Interfaces.order_independent_partial' depends on axioms: [propext, Classical.choice, Quot.sound] 
'Serum.Props.Interfaces.recorded_exact_partial' depends on axioms: [propext, Classical.choice, Quot.sound] 
'Serum.Props.Interfaces.search_ends' depends on axioms: [propext, Classical.choice, Quot.sound] 
'Serum.Props.Interfaces.unrecordable_exact' depends on axioms: [propext, Classical.choice, Quot.sound] 
'Serum.Props.Linked.Escapes.unsupported' depends on axioms: [propext, Classical.choice, Quot.sound] 
'Serum.Props.Linked.coherent' depends on axioms: [propext, Classical.choice, Quot.sound] 
'Serum.Props.Linked.holds_declared' depends on axioms: [propext, Classical.choice, Quot.sound] 
'Serum.Props.Linked.linked_sound_partial' depends on axioms: [propext, Classical.choice, Quot.sound] 
'Serum.Props.Literals.literal_codes' depends on axioms: [propext, Classical.choice, Quot.sound] 
'Serum.Props.Literals.literal_silent_iff' depends on axioms: [propext, Classical.choice, Quot.sound] 
'Serum.Props.Literals.not_an_error' depends on axioms: [propext] 
'Serum.Props.Literals.text_exact' depends on axioms: [propext, Classical.choice, Quot.sound] 
'Serum.Props.Machine.Literal.returned_b' depends on axioms: [propext, Quot.sound] 
'Serum.Props.Machine.Packages.returned_run' depends on axioms: [propext, Quot.sound] 
'Serum.Props.Machine.Shared.returned_b' depends on axioms: [propext, Quot.sound] 
'Serum.Props.Machine.machine_sound_partial' depends on axioms: [propext, Classical.choice, Quot.sound] 
'Serum.Props.Machine.returned_yields' depends on axioms: [propext, Classical.choice, Quot.sound] 
'Serum.Props.Messages.all_used' depends on axioms: [propext, Classical.choice, Quot.sound] 
'Serum.Props.Messages.claim_inj' depends on axioms: [propext] 
'Serum.Props.Messages.conversion_text' depends on axioms: [propext, Quot.sound] 
'Serum.Props.Messages.docError_text' does not depend on any axioms 
'Serum.Props.Messages.embedded_text' depends on axioms: [propext, Quot.sound] 
'Serum.Props.Messages.iface_inj' depends on axioms: [propext] 
'Serum.Props.Messages.mismatch_text' depends on axioms: [propext, Quot.sound] 
'Serum.Props.Messages.msg_inj' depends on axioms: [propext] 
'Serum.Props.Messages.readable' depends on axioms: [propext, Classical.choice, Quot.sound] 
'Serum.Props.Messages.shown_body' depends on axioms: [propext, Quot.sound] 
'Serum.Props.Messages.shown_mismatch' depends on axioms: [propext, Quot.sound] 
'Serum.Props.Messages.shown_order_independent_partial' depends on axioms: [propext, Classical.choice, Quot.sound] 
'Serum.Props.Messages.shown_outside' depends on axioms: [propext, Quot.sound] 
'Serum.Props.Messages.shown_perm' depends on axioms: [propext, Quot.sound] 
'Serum.Props.Messages.shown_readable' depends on axioms: [propext, Classical.choice, Quot.sound] 
'Serum.Props.Messages.tag_inj' depends on axioms: [propext] 
'Serum.Props.Part.Example.b_next' depends on axioms: [propext, Classical.choice, Quot.sound] 
'Serum.Props.Part.Example.b_reports' depends on axioms: [propext, Classical.choice, Quot.sound] 
'Serum.Props.Part.Example.without_c' depends on axioms: [propext, Classical.choice, Quot.sound] 
'Serum.Props.Part.facts_of_part' depends on axioms: [propext, Classical.choice, Quot.sound] 
'Serum.Props.Part.next_succeeds_partial' depends on axioms: [propext, Classical.choice, Quot.sound] 
'Serum.Props.Part.part_of_program' depends on axioms: [propext, Classical.choice, Quot.sound] 
'Serum.Props.Part.reports_of_part_partial' depends on axioms: [propext, Classical.choice, Quot.sound] 
'Serum.Props.Rearrange.blanks_order_matters' depends on axioms: [propext, Classical.choice, Quot.sound] 
'Serum.Props.Rearrange.functions_as_schedule' depends on axioms: [propext, Classical.choice, Quot.sound] 
'Serum.Props.Rearrange.last_of_distinct' depends on axioms: [propext, Quot.sound] 
'Serum.Props.Rearrange.order_partial' depends on axioms: [propext, Classical.choice, Quot.sound] 
'Serum.Props.Rearrange.pkg_rearranged_same' depends on axioms: [propext, Classical.choice, Quot.sound] 
'Serum.Props.Rearrange.positions' depends on axioms: [propext, Classical.choice, Quot.sound] 
'Serum.Props.Rearrange.rearranged_partial' depends on axioms: [propext, Classical.choice, Quot.sound] 
'Serum.Props.Rearrange.success_partial' depends on axioms: [propext, Classical.choice, Quot.sound] 
'Serum.Props.Removal.comparison_unaffected_partial' depends on axioms: [propext, Classical.choice, Quot.sound] 
'Serum.Props.Removal.conversions_unaffected_partial' depends on axioms: [propext, Classical.choice, Quot.sound] 
'Serum.Props.Removal.declarations_unaffected' depends on axioms: [propext, Classical.choice, Quot.sound] 
'Serum.Props.Removal.removed_silent' depends on axioms: [propext, Classical.choice, Quot.sound] 
'Serum.Props.Removal.success_partial' depends on axioms: [propext, Classical.choice, Quot.sound] 
'Serum.Props.Removal.unaffected' depends on axioms: [propext, Classical.choice, Quot.sound] 
'Serum.Props.Renaming.assignment_matters' depends on axioms: [propext, Quot.sound] 
'Serum.Props.Renaming.code_parameter_matters' depends on axioms: [propext, Quot.sound] 
'Serum.Props.Renaming.conversion_matters' depends on axioms: [propext, Quot.sound] 
'Serum.Props.Renaming.left_out' depends on axioms: [propext, Classical.choice, Quot.sound] 
'Serum.Props.Renaming.nil_matters' depends on axioms: [propext, Quot.sound] 
'Serum.Props.Renaming.renamed' depends on axioms: [propext, Classical.choice, Quot.sound] 
'Serum.Props.Renaming.renamed_moved' depends on axioms: [propext, Classical.choice, Quot.sound] 
'Serum.Props.Reports.fact_text_deterministic' depends on axioms: [propext, Classical.choice, Quot.sound] 
'Serum.Props.Reports.interface_report_deterministic' depends on axioms: [propext, Classical.choice, Quot.sound] 
'Serum.Props.Reports.interface_text_deterministic' depends on axioms: [propext, Classical.choice, Quot.sound] 
'Serum.Props.Reports.mismatch_deterministic' depends on axioms: [propext, Classical.choice, Quot.sound] 
'Serum.Props.Reports.mismatch_exact' depends on axioms: [propext, Classical.choice, Quot.sound] 
'Serum.Props.ReturnScope.report_justified' depends on axioms: [propext, Classical.choice, Quot.sound] 
'Serum.Props.ReturnScope.returned_reported' depends on axioms: [propext, Classical.choice, Quot.sound] 
'Serum.Props.Run.Callback.order_matters' depends on axioms: [propext, Quot.sound] 
'Serum.Props.Run.all_corrected_partial' depends on axioms: [propext, Classical.choice, Quot.sound] 
'Serum.Props.Run.all_orders_independent_partial' depends on axioms: [propext, Classical.choice, Quot.sound] 
'Serum.Props.Run.bodies_once' depends on axioms: [propext, Classical.choice, Quot.sound] 
'Serum.Props.Run.bodies_terminate' depends on axioms: [propext, Classical.choice, Quot.sound] 
'Serum.Props.Run.broken_panics' depends on axioms: [propext, Quot.sound] 
'Serum.Props.Run.code_methods_covered_partial' depends on axioms: [propext, Classical.choice, Quot.sound] 
'Serum.Props.Run.conversion_reported_partial' depends on axioms: [propext, Classical.choice, Quot.sound] 
'Serum.Props.Run.conversions_derivable' depends on axioms: [propext, Classical.choice, Quot.sound] 
'Serum.Props.Run.conversions_exact_partial' depends on axioms: [propext, Classical.choice, Quot.sound] 
'Serum.Props.Run.corrections_partial' depends on axioms: [propext, Classical.choice, Quot.sound] 
'Serum.Props.Run.declaration_reports_exact' depends on axioms: [propext, Classical.choice, Quot.sound] 
'Serum.Props.Run.declarations_read' depends on axioms: [propext, Classical.choice, Quot.sound] 
'Serum.Props.Run.exported_codes' depends on axioms: [propext, Classical.choice, Quot.sound] 
'Serum.Props.Run.exported_constructors' depends on axioms: [propext, Classical.choice, Quot.sound] 
'Serum.Props.Run.exported_error_types_partial' depends on axioms: [propext, Classical.choice, Quot.sound] 
'Serum.Props.Run.exported_interfaces_partial' depends on axioms: [propext, Classical.choice, Quot.sound] 
'Serum.Props.Run.exported_wellFormed' depends on axioms: [propext, Classical.choice, Quot.sound] 
'Serum.Props.Run.facts_order_independent_partial' depends on axioms: [propext, Classical.choice, Quot.sound] 
'Serum.Props.Run.field_order_independent' depends on axioms: [propext, Classical.choice, Quot.sound] 
'Serum.Props.Run.fixable_partial' depends on axioms: [propext, Classical.choice, Quot.sound] 
'Serum.Props.Run.interface_reports_counted_partial' depends on axioms: [propext, Classical.choice, Quot.sound] 
'Serum.Props.Run.interface_reports_exact_partial' depends on axioms: [propext, Classical.choice, Quot.sound] 
'Serum.Props.Run.interfaces_exact_partial' depends on axioms: [propext, Classical.choice, Quot.sound] 
'Serum.Props.Run.mismatches_exact_partial' depends on axioms: [propext, Classical.choice, Quot.sound] 
'Serum.Props.Run.order_independent_partial' depends on axioms: [propext, Classical.choice, Quot.sound] 
'Serum.Props.Run.outside_report_justified' depends on axioms: [propext, Classical.choice, Quot.sound] 
'Serum.Props.Run.reported_wellFormed' depends on axioms: [propext, Classical.choice, Quot.sound] 
'Serum.Props.Run.returned_outside_reported' depends on axioms: [propext, Classical.choice, Quot.sound] 
'Serum.Props.Run.run_panics_exact' depends on axioms: [propext, Classical.choice, Quot.sound] 
'Serum.Props.Run.run_succeeds_iff' depends on axioms: [propext, Classical.choice, Quot.sound] 
'Serum.Props.Run.run_succeeds_partial' depends on axioms: [propext, Classical.choice, Quot.sound] 
'Serum.Props.Run.run_terminates' depends on axioms: [propext, Classical.choice, Quot.sound] 
'Serum.Props.Run.same_inputs_partial' depends on axioms: [propext, Classical.choice, Quot.sound] 
'Serum.Props.Run.same_success_partial' depends on axioms: [propext, Classical.choice, Quot.sound] 
'Serum.Props.Run.signatures_exact' depends on axioms: [propext, Classical.choice, Quot.sound] 
'Serum.Props.Run.silent_declared_partial' depends on axioms: [propext, Classical.choice, Quot.sound] 
'Serum.Props.Run.smuggled_iff_partial' depends on axioms: [propext, Classical.choice, Quot.sound] 
'Serum.Props.Run.strict_run' depends on axioms: [propext, Classical.choice, Quot.sound] 
'Serum.Props.Run.success_order_independent_partial' depends on axioms: [propext, Classical.choice, Quot.sound] 
'Serum.Props.Run.undeclared_derivable' depends on axioms: [propext, Classical.choice, Quot.sound] 
'Serum.Props.Run.values_uncalled' depends on axioms: [propext, Classical.choice, Quot.sound] 
'Serum.Props.Run.wrong_fixed' depends on axioms: [propext, Classical.choice, Quot.sound] 
'Serum.Props.Session.Again.same' depends on axioms: [propext, Classical.choice, Quot.sound] 
'Serum.Props.Session.declarations_travel' depends on axioms: [propext, Classical.choice, Quot.sound] 
'Serum.Props.Session.facts_again' depends on axioms: [propext, Classical.choice, Quot.sound] 
'Serum.Props.Session.facts_complete' depends on axioms: [propext, Classical.choice, Quot.sound] 
'Serum.Props.Session.facts_from_owner' depends on axioms: [propext, Classical.choice, Quot.sound] 
'Serum.Props.Session.facts_travel' depends on axioms: [propext, Classical.choice, Quot.sound] 
'Serum.Props.Session.program_again_partial' depends on axioms: [propext, Classical.choice, Quot.sound] 
'Serum.Props.Session.unrelated_packages' depends on axioms: [propext, Classical.choice, Quot.sound] 
'Serum.Props.Soundness.aliased_store_missed' depends on axioms: [propext, Quot.sound] 
'Serum.Props.Soundness.conversion_missed' depends on axioms: [propext, Quot.sound] 
'Serum.Props.Soundness.deferred_missed' depends on axioms: [propext, Quot.sound] 
'Serum.Props.Soundness.deref_store_missed' depends on axioms: [propext, Quot.sound] 
'Serum.Props.Soundness.errors_as_missed' depends on axioms: [propext, Quot.sound] 
'Serum.Props.Soundness.failed_assertion_missed' depends on axioms: [propext, Quot.sound] 
'Serum.Props.Soundness.foreign_store_missed' depends on axioms: [propext, Quot.sound] 
'Serum.Props.Soundness.method_expression_missed' depends on axioms: [propext, Quot.sound] 
'Serum.Props.Soundness.range_function_missed' depends on axioms: [propext, Quot.sound] 
'Serum.Props.Soundness.range_variable_missed' depends on axioms: [propext, Quot.sound] 
'Serum.Props.Soundness.silent_run_declared_partial' depends on axioms: [propext, Classical.choice, Quot.sound] 
'Serum.Props.Soundness.silent_run_sound_partial' depends on axioms: [propext, Classical.choice, Quot.sound] 
'Serum.Props.Soundness.zero_value_missed' depends on axioms: [propext, Quot.sound] 
'Serum.Props.Space.blank_exact' depends on axioms: [propext, Classical.choice, Quot.sound] 
'Serum.Props.Space.split_exact' depends on axioms: [propext, Quot.sound] 
'Serum.Props.Space.trim_exact' depends on axioms: [propext, Classical.choice, Quot.sound] 
'Serum.Props.Texts.Quotes.unique' depends on axioms: [propext, Classical.choice, Quot.sound] 
'Serum.Props.Texts.codes_readable' depends on axioms: [propext, Quot.sound] 
'Serum.Props.Texts.constructor_readable' depends on axioms: [propext, Quot.sound] 
'Serum.Props.Texts.conversion_readable' depends on axioms: [propext, Classical.choice, Quot.sound] 
'Serum.Props.Texts.conversion_says' depends on axioms: [propext] 
'Serum.Props.Texts.error_type_readable' depends on axioms: [propext, Classical.choice, Quot.sound] 
'Serum.Props.Texts.error_type_text_deterministic' depends on axioms: [propext, Quot.sound] 
'Serum.Props.Texts.function_mismatch_readable' depends on axioms: [propext, Classical.choice, Quot.sound] 
'Serum.Props.Texts.mismatch_names' depends on axioms: [propext] 
'Serum.Props.Texts.mismatch_readable' depends on axioms: [propext] 
'Serum.Props.Texts.mismatch_says' depends on axioms: [propext] 
'Serum.Props.Texts.run_mismatches_readable' depends on axioms: [propext, Classical.choice, Quot.sound] 
'Serum.Props.Tracking.nested_parameter_accepted' depends on axioms: [propext, Quot.sound] 
'Serum.Props.Tracking.nil_accepted' depends on axioms: [propext, Quot.sound] 
'Serum.Props.Tracking.outer_reported' depends on axioms: [propext, Classical.choice, Quot.sound] 
'Serum.Props.Tracking.own_scope_exact' depends on axioms: [propext, Classical.choice, Quot.sound] 
'Serum.Props.Tracking.tracking_exact_partial' depends on axioms: [propext, Classical.choice, Quot.sound] 
'Serum.Props.Tracking.unresolved_reported' depends on axioms: [propext, Classical.choice, Quot.sound] 
'Serum.Props.TypeReports.getParamPosition_iff' depends on axioms: [propext, Quot.sound] 
'Serum.Props.TypeReports.other_types' depends on axioms: [propext, Quot.sound] 
'Serum.Props.TypeReports.parameter_at' depends on axioms: [propext, Quot.sound] 
'Serum.Props.TypeReports.reports' depends on axioms: [propext, Classical.choice, Quot.sound] 
'Serum.Props.TypeReports.run_reports' depends on axioms: [propext, Classical.choice, Quot.sound] 
'Serum.Testdata.annotation.always' depends on axioms: [propext, Classical.choice, Quot.sound] 
'Serum.Testdata.annotation.prints' depends on axioms: [propext, Classical.choice, Quot.sound] 
'Serum.Testdata.annotation.returnsOnly' depends on axioms: [propext, Classical.choice, Quot.sound] 
'Serum.Testdata.dereferenceAssignment.always' depends on axioms: [propext, Classical.choice, Quot.sound] 
'Serum.Testdata.dereferenceAssignment.prints' depends on axioms: [propext, Classical.choice, Quot.sound] 
'Serum.Testdata.docformat.always' depends on axioms: [propext, Classical.choice, Quot.sound] 
'Serum.Testdata.docformat.prints' depends on axioms: [propext, Classical.choice, Quot.sound] 
'Serum.Testdata.docformat.returnsOnly' depends on axioms: [propext, Classical.choice, Quot.sound] 
'Serum.Testdata.dotimport.always' depends on axioms: [propext, Classical.choice, Quot.sound] 
'Serum.Testdata.dotimport.prints' depends on axioms: [propext, Classical.choice, Quot.sound] 
'Serum.Testdata.dotimport.returnsOnly' depends on axioms: [propext, Classical.choice, Quot.sound] 
'Serum.Testdata.dotimportInner1.always' depends on axioms: [propext, Classical.choice, Quot.sound] 
'Serum.Testdata.dotimportInner1.prints' depends on axioms: [propext, Classical.choice, Quot.sound] 
'Serum.Testdata.dotimportInner1.returnsOnly' depends on axioms: [propext, Classical.choice, Quot.sound] 
'Serum.Testdata.dotimportInner2.always' depends on axioms: [propext, Classical.choice, Quot.sound] 
'Serum.Testdata.dotimportInner2.prints' depends on axioms: [propext, Classical.choice, Quot.sound] 
'Serum.Testdata.dotimportInner2.returnsOnly' depends on axioms: [propext, Classical.choice, Quot.sound] 
'Serum.Testdata.errorConstructor.always' depends on axioms: [propext, Classical.choice, Quot.sound] 
'Serum.Testdata.errorConstructor.prints' depends on axioms: [propext, Classical.choice, Quot.sound] 
'Serum.Testdata.errorConstructor.returnsOnly' depends on axioms: [propext, Classical.choice, Quot.sound] 
'Serum.Testdata.errortypes.always' depends on axioms: [propext, Classical.choice, Quot.sound] 
'Serum.Testdata.errortypes.prints' depends on axioms: [propext, Classical.choice, Quot.sound] 
'Serum.Testdata.examples.always' depends on axioms: [propext, Classical.choice, Quot.sound] 
'Serum.Testdata.examples.bodiesExact' depends on axioms: [propext, Classical.choice, Quot.sound] 
'Serum.Testdata.examples.prints' depends on axioms: [propext, Classical.choice, Quot.sound] 
'Serum.Testdata.examples.returnsOnly' depends on axioms: [propext, Classical.choice, Quot.sound] 
'Serum.Testdata.fieldAssignment.always' depends on axioms: [propext, Classical.choice, Quot.sound] 
'Serum.Testdata.fieldAssignment.prints' depends on axioms: [propext, Classical.choice, Quot.sound] 
'Serum.Testdata.fieldAssignment.returnsOnly' depends on axioms: [propext, Classical.choice, Quot.sound] 
'Serum.Testdata.funcLiteral.always' depends on axioms: [propext, Classical.choice, Quot.sound] 
'Serum.Testdata.funcLiteral.bodiesExact' depends on axioms: [propext, Classical.choice, Quot.sound] 
'Serum.Testdata.funcLiteral.prints' depends on axioms: [propext, Classical.choice, Quot.sound] 
'Serum.Testdata.funcLiteral.returnsOnly' depends on axioms: [propext, Classical.choice, Quot.sound] 
'Serum.Testdata.funcLiteralInner.always' depends on axioms: [propext, Classical.choice, Quot.sound] 
'Serum.Testdata.funcLiteralInner.prints' depends on axioms: [propext, Classical.choice, Quot.sound] 
'Serum.Testdata.funcLiteralInner.returnsOnly' depends on axioms: [propext, Classical.choice, Quot.sound] 
'Serum.Testdata.interfaces.always' depends on axioms: [propext, Classical.choice, Quot.sound] 
'Serum.Testdata.interfaces.prints' depends on axioms: [propext, Classical.choice, Quot.sound] 
'Serum.Testdata.interfaces.returnsOnly' depends on axioms: [propext, Classical.choice, Quot.sound] 
'Serum.Testdata.interfacesInner1.always' depends on axioms: [propext, Classical.choice, Quot.sound] 
'Serum.Testdata.interfacesInner1.prints' depends on axioms: [propext, Classical.choice, Quot.sound] 
'Serum.Testdata.interfacesInner1.returnsOnly' depends on axioms: [propext, Classical.choice, Quot.sound] 
'Serum.Testdata.interfacesInner2.always' depends on axioms: [propext, Classical.choice, Quot.sound] 
'Serum.Testdata.interfacesInner2.prints' depends on axioms: [propext, Classical.choice, Quot.sound] 
'Serum.Testdata.interfacesInner2.returnsOnly' depends on axioms: [propext, Classical.choice, Quot.sound] 
'Serum.Testdata.methods.always' depends on axioms: [propext, Classical.choice, Quot.sound] 
'Serum.Testdata.methods.prints' depends on axioms: [propext, Classical.choice, Quot.sound] 
'Serum.Testdata.methods.returnsOnly' depends on axioms: [propext, Classical.choice, Quot.sound] 
'Serum.Testdata.multifile.always' depends on axioms: [propext, Classical.choice, Quot.sound] 
'Serum.Testdata.multifile.prints' depends on axioms: [propext, Classical.choice, Quot.sound] 
'Serum.Testdata.multifile.returnsOnly' depends on axioms: [propext, Classical.choice, Quot.sound] 
'Serum.Testdata.multipackage.always' depends on axioms: [propext, Classical.choice, Quot.sound] 
'Serum.Testdata.multipackage.prints' depends on axioms: [propext, Classical.choice, Quot.sound] 
'Serum.Testdata.multipackage.returnsOnly' depends on axioms: [propext, Classical.choice, Quot.sound] 
'Serum.Testdata.multipackageInner1.always' depends on axioms: [propext, Classical.choice, Quot.sound] 
'Serum.Testdata.multipackageInner1.prints' depends on axioms: [propext, Classical.choice, Quot.sound] 
'Serum.Testdata.multipackageInner1.returnsOnly' depends on axioms: [propext, Classical.choice, Quot.sound] 
'Serum.Testdata.multipackageInner2.always' depends on axioms: [propext, Classical.choice, Quot.sound] 
'Serum.Testdata.multipackageInner2.prints' depends on axioms: [propext, Classical.choice, Quot.sound] 
'Serum.Testdata.multipackageInner2.returnsOnly' depends on axioms: [propext, Classical.choice, Quot.sound] 
'Serum.Testdata.p001.always' depends on axioms: [propext, Classical.choice, Quot.sound] 
'Serum.Testdata.p001.prints' depends on axioms: [propext, Classical.choice, Quot.sound] 
'Serum.Testdata.p001.returnsOnly' depends on axioms: [propext, Classical.choice, Quot.sound] 
'Serum.Testdata.recursion.always' depends on axioms: [propext, Classical.choice, Quot.sound] 
'Serum.Testdata.recursion.prints' depends on axioms: [propext, Classical.choice, Quot.sound] 
'Serum.Testdata.recursion.returnsOnly' depends on axioms: [propext, Classical.choice, Quot.sound] 
'Serum.Testdata.typeAssertion.always' depends on axioms: [propext, Classical.choice, Quot.sound] 
'Serum.Testdata.typeAssertion.prints' depends on axioms: [propext, Classical.choice, Quot.sound] 
'Serum.Testdata.typeAssertion.returnsOnly' depends on axioms: [propext, Classical.choice, Quot.sound] 
'Serum.Testdata.typecast.always' depends on axioms: [propext, Classical.choice, Quot.sound] 
'Serum.Testdata.typecast.prints' depends on axioms: [propext, Classical.choice, Quot.sound] 
'Serum.Testdata.typecast.returnsOnly' depends on axioms: [propext, Classical.choice, Quot.sound] 
'Serum.because_iff' depends on axioms: [propext, Classical.choice, Quot.sound] 
