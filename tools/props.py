import json
P=[]
def p(id,title,statement,quantifier,why,anchors):
    P.append(dict(id=id,title=title,statement=statement,quantifier=quantifier,why_tests_cant=why,anchors=anchors))
L='pyflowgo/flowgo_logger.py:FlowGoLogger'
I='pyflowgo/flowgo_integrator.py:FlowGoIntegrator'
ML='pyflowgo/flowgo_material_lava.py:FlowGoMaterialLava'
R='pyflowgo/run_flowgo.py:RunFlowgo'
HB='pyflowgo/flowgo_heat_budget.py:FlowGoHeatBudget'
T='pyflowgo/flowgo_terrain_condition.py:FlowGoTerrainCondition'
F='pyflowgo/flowgo_model_factory.py:FlowgoModelFactory'
# ---- logger
p('C01','Logger is a last-write-wins map with one row per position',
 'After any sequence of add_variable(name, position, value) calls, get_values and the CSV rows show exactly one row for each distinct position that was written, rows appear in order of first write, and the cell (position, name) holds the value of the last call with that position and name, or is absent when there was none.',
 'every finite sequence of add_variable calls, every variable name other than the reserved key, every position and value type with lawful equality',
 'a test fixes a handful of calls; the claim is about all call histories and interleavings of positions',[L+'.add_variable',L+'.get_values'])
p('C02','Columns returned by get_values are aligned',
 'For any history of log calls, get_values(a) and get_values(b) have the same length, which is the number of distinct positions, get_values("position") lists the distinct positions in first-write order, and index i of every column belongs to the i-th position.',
 'every history of log calls and every pair of variable names','alignment must hold for every history, including names never logged or logged at only some positions',[L+'.get_values',L+'.add_variable'])
p('C03','A freshly constructed runner does not depend on earlier runs',
 'RunFlowgo() followed by run(cfg) ends in the same log, result rows and error regardless of what was logged before in the process. Calling run twice on the same RunFlowgo object does not enjoy this: rows of the first run survive into the second output.',
 'every earlier log content (process history) and every configuration','tests run one configuration per process or fixed pairs; the claim is over every prior history',[R+'.__init__',R+'.run',L+'.clear'])
p('C04','Writing the results file never fails on a column mismatch',
 'For the log left by a run, every row has only columns of the first row, so csv.DictWriter never raises for unknown fields, every row except possibly the last has exactly the columns of the first row, and the last one lacks only columns written after the heat budget.',
 'every configuration, every number of completed steps and every kind of stop','the set of logged keys depends on which branch ended the run; tests see one run each',[L+'.write_values_to_file',I+'.single_step',HB+'.compute_heat_budget'])
# ---- integrator
p('C05','The integration loop terminates',
 'With a positive step size the loop "while not has_finished: single_step" ends (normally or with an exception) after at most ceil((L - x0)/dx) steps when x0 < L, and after one step when x0 >= L, where L is max_channel_length and x0 the initial position.',
 'every configuration, every choice of sub-models, every initial state and every positive step size','termination quantifies over all executions; a test only shows that some executions end',[I+'.single_step',R+'.run'])
p('C06','Position and time advance exactly as configured',
 'After k accepted steps the position is x0 + k*dx, time has increased by the sum of dx/v over the accepted steps, iteration is k, and with positive dx positions are strictly increasing and, because v > 0 on every accepted step, time is strictly increasing.',
 'every configuration and every number of accepted steps','needs induction over the number of steps',[I+'.single_step'])
p('C07','Crystal fraction strictly increases along the flow',
 'On every accepted step the new crystal fraction is strictly larger than the old one; a step whose crystal fraction would not increase ends the run instead and leaves the state unchanged.',
 'every configuration and every reachable state','a claim on every step of every run',[I+'.single_step'])
p('C08','Crystallisation and cooling are tied by the crystallisation rate',
 'On every accepted step, delta_phi = -rate * delta_T where rate is the crystallisation-rate model evaluated at the state before the step; the logged dphi_dx, dtemp_dx and dphi_dtemp satisfy dphi_dx = -dphi_dtemp*dtemp_dx.',
 'every configuration and every accepted step','exact relation for all inputs rather than sampled values',[I+'.single_step'])
p('C09','The core cools on every accepted step when the crystallisation rate is positive',
 'If the crystallisation rate is positive, every accepted step strictly lowers the core temperature; if it is negative, every accepted step strictly raises it.',
 'every configuration, every accepted step','sign must hold at every step of every run',[I+'.single_step'])
p('C10','Crystal budget of the basic crystallisation model',
 'With the basic crystallisation model, at every point of a run crystal_fraction = initial + rate*(T_eruption - T) with rate = crystals_grown/(T_eruption - T_solid), hence crystal_fraction < initial + crystals_grown while the core is above the solidus.',
 'every run and every number of steps with the basic model','an invariant by induction over all steps',[I+'.single_step',I+'.initialize_state','pyflowgo/flowgo_crystallization_rate_model_basic.py:FlowGoCrystallizationRateModelBasic'])
p('C11','Volume conservation',
 'With mass_conservation off, on every accepted step channel_width*mean_velocity*channel_depth equals the effusion rate, which is set on the first step from the configured width and never changes afterwards; on the first step channel_width is the configured width.',
 'every configuration with mass conservation off, every step','an exact relation and invariance over all steps',[I+'.single_step'])
p('C12','Mass conservation',
 'With mass_conservation on and a non-zero configured effusion rate, on every accepted step channel_width*mean_velocity*channel_depth*bulk_density equals the mass flux fixed by init_effusion_rate; with mass_conservation on and effusion_rate_init = 0 the first step that reaches the width computation fails with AttributeError.',
 'every configuration with mass conservation on, every step','exact relation over all steps, plus an error branch that depends on the configuration',[I+'.single_step',I+'.init_effusion_rate'])
p('C13','Why a run stopped',
 'A run ends normally exactly when, on the last step: the velocity is <= 0, or the crystal fraction would not increase, or the new temperature is <= the solid temperature, or the new state is incompatible with the viscosity model, or the yield strength is >= the basal shear stress, or position >= max_channel_length; and while it has not finished after an accepted step, T > T_solid, the state is compatible, tho_0 < tho_b and position < max_channel_length.',
 'every configuration and every step','the exact stopping set must be complete for all executions',[I+'.single_step',I+'.has_finished'])
p('C14','A step that stops early does not move the lava',
 'When a step ends the run because velocity <= 0 or the crystal fraction would not increase, crystal fraction, core temperature, position, time and iteration are unchanged; only the strain rate, the log and (on the very first step) the stored effusion rate may change.',
 'every state and configuration','frame property over all inputs',[I+'.single_step'])
p('C15','Energy balance of a step',
 'On every accepted step, effusion_rate * density * latent_heat * (phi_new - phi_old) = heat_budget * dx, i.e. the latent heat released by the crystals formed equals the heat lost over the step.',
 'every configuration and every accepted step','exact algebraic identity for all inputs',[I+'.single_step'])
p('C16','A non-positive heat budget stops the run',
 'If the total heat loss is <= 0 while effusion_rate*density*latent_heat > 0 and dx > 0, the step is not accepted and the run ends unchanged; if it is > 0 the step is accepted (for any non-zero crystallisation rate).',
 'every configuration and state','both directions over all inputs',[I+'.single_step',HB+'.compute_heat_budget'])
# ---- velocity
p('C17','Bingham velocity law: zero exactly at yield, positive before',
 'The mean velocity returned for basal stress tho_b > 0, viscosity > 0, depth > 0 and 0 <= tho_0 <= tho_b is >= 0 and is 0 if and only if tho_0 = tho_b.',
 'all real stresses, depths and viscosities','analytic statement over a continuum',[ML+'.compute_mean_velocity'])
p('C18','Velocity decreases with yield strength and viscosity, and has the Newtonian limit',
 'For fixed other quantities the mean velocity is strictly decreasing in tho_0 on [0, tho_b], strictly decreasing in viscosity (when tho_0 < tho_b), and equals depth*tho_b/(3*viscosity) when tho_0 = 0.',
 'all real arguments in the stated ranges','monotonicity over a continuum',[ML+'.compute_mean_velocity'])
p('C19','Lava whose yield strength exceeds the basal stress does not move',
 'A user expects mean velocity <= 0 when tho_0 > tho_b. The code violates it: the velocity formula is strictly positive for every tho_0 > tho_b > 0, so compute_mean_velocity returns a positive speed for a flow that cannot move, and it grows without bound with tho_0.',
 'all tho_0 > tho_b > 0','the unit tests stay in tho_0 < tho_b; the claim is over the whole range',[ML+'.compute_mean_velocity',I+'.single_step'])
p('C20','Velocity iteration always converges within two evaluations',
 'compute_mean_velocity never raises its "failed to converge" RuntimeError and evaluates the viscosity at most twice, for every sub-model choice, because the strain rate stored in the state is only updated after the loop.',
 'every lava, terrain and state, any arithmetic in which x - x = 0 and |0| <= max(..)','unreachability of an error for all inputs',[ML+'.compute_mean_velocity'])
p('C21','compute_mean_velocity stores the strain rate of the velocity it returns and changes nothing else',
 'After a successful call the state strain rate is 3*v/depth with v the returned velocity, and position, time, temperature and crystal fraction are unchanged; after a failing call nothing is changed.',
 'every lava, terrain and state','frame property over all inputs',[ML+'.compute_mean_velocity'])
p('C22','Velocity is reproducible for strain-independent rheologies, not for strain-dependent ones',
 'If the viscosity models do not depend on strain rate, calling compute_mean_velocity again on the updated state gives the same velocity and state. For strain-dependent models (bll, mader) a second call can return a different velocity: the advertised 1% self-consistency of strain rate does not hold.',
 'every strain-independent configuration; existence of a strain-dependent one','idempotence over all inputs plus a counterexample',[ML+'.compute_mean_velocity','pyflowgo/flowgo_relative_viscosity_model_bll.py','pyflowgo/flowgo_relative_viscosity_bubbles_model_mader.py'])
p('C23','Sub-models only ever change the strain rate of the state',
 'Computing any flux, the effective cover fraction or the total heat budget leaves position, time, temperature and crystal fraction unchanged; only the strain rate and the log change.',
 'every flux list, configuration and state','frame property for every composition of models',[HB+'.compute_heat_budget','pyflowgo/flowgo_effective_cover_crust_model_basic.py','pyflowgo/flowgo_flux_radiation_heat.py'])
p('C24','Within a run every step after the first starts with a moving flow',
 'For lava with positive viscosity and non-negative yield strength, in a run whose basal stress is positive, after a step that did not finish, the next step has v > 0 (the velocity-zero stop can only occur on the first step).',
 'every run and step','reachability argument over all executions',[I+'.single_step',ML+'.yield_strength_notcompatible'])
# ---- init effusion
p('C25','Initial depth search returns the first sufficient grid depth',
 'With a non-zero configured effusion rate and no error, the channel depth after init_effusion_rate is the smallest grid depth 0.01+0.001*i whose volume flux reaches the configured rate; if no grid depth reaches it, the deepest one is kept silently with the flux it yields.',
 'every configuration; any search grid','the search ranges over 49990 depths and all configurations; the silent fall-through branch is untested',[I+'.init_effusion_rate'])
p('C26','Zero configured effusion rate leaves everything unchanged',
 'With effusion_rate_init = 0 the depth, state and log are exactly as configured and the effusion rate is set by the first step from width, depth and velocity.',
 'every configuration with rate 0','frame property',[I+'.init_effusion_rate',I+'.single_step'])
p('C27','Flux grows with depth once the flow moves',
 'For fixed state with strain-independent viscosity, the volume flux is strictly increasing in channel depth on depths where tho_b > tho_0, so the first sufficient depth there is the unique threshold; below (tho_b < tho_0) the flux is positive, strictly decreasing in depth, and can already exceed the request at the shallowest grid depth, so the search may return a depth at which lava cannot move.',
 'all depths and configurations, existence for the second half','monotonicity over a continuum, and a corner untested',[I+'.init_effusion_rate',ML+'.compute_mean_velocity'])
# ---- viscosity
p('C28','Melt viscosity is positive and decreases with temperature',
 'For the basic, Shaw and VFT models with physically signed parameters, melt viscosity is > 0 and strictly decreasing in core temperature (for T > 0 with Shaw, T > C with VFT); the models fail only at T = 0 (Shaw) and T = C (VFT).',
 'all real temperatures and parameters with the stated signs','analytic monotonicity',['pyflowgo/flowgo_melt_viscosity_model_basic.py','pyflowgo/flowgo_melt_viscosity_model_shaw.py','pyflowgo/flowgo_melt_viscosity_model_vft.py'])
p('C29','Crystals never thin the lava: relative viscosity >= 1 and increasing in crystal fraction',
 'For er, kd, mp, mp_mueller, ptp1, ptp2, ptp3 below their packing limit and with valid parameters, relative viscosity is >= 1 and strictly increasing in crystal fraction.',
 'all real crystal and vesicle fractions below the limit','analytic bounds over a continuum',['pyflowgo/flowgo_relative_viscosity_model_er.py','pyflowgo/flowgo_relative_viscosity_model_kd.py','pyflowgo/flowgo_relative_viscosity_model_mp.py','pyflowgo/flowgo_relative_viscosity_model_ptp1.py'])
p('C30','The compatibility check protects the viscosity computation',
 'A user expects: is_notcompatible(state) = False implies compute_relative_viscosity succeeds. It holds for er; for kd, mp, mp_mueller, ptp1, ptp2 and ptp3 it fails exactly at the packing limit; the mader check only rejects phi = phimax so it accepts phi > phimax; bll fails exactly at phi = phimax with zero vesicles; costa accepts everything although it yields no number for strain_rate parameters other than 1.0 and 0.0001.',
 'all states and parameters','equality boundary cases never hit by tests',['pyflowgo/flowgo_relative_viscosity_model_er.py','pyflowgo/flowgo_relative_viscosity_model_kd.py','pyflowgo/flowgo_relative_viscosity_model_mader.py','pyflowgo/flowgo_relative_viscosity_model_costa1.py'])
p('C31','Bubble models: direction of the effect and the Mader switch',
 'For vesicle fraction in [0,1): rigid >= 1 and increasing, deformable in (0,1] and decreasing, no = 1; the mader model equals rigid exactly when the capillary number is < 1 and deformable otherwise. At vesicle fraction 1 rigid fails, above 1 deformable fails.',
 'all vesicle fractions, all capillary numbers','boundary and range claims over a continuum',['pyflowgo/flowgo_relative_viscosity_bubbles_model_rigid.py','pyflowgo/flowgo_relative_viscosity_bubbles_model_defo.py','pyflowgo/flowgo_relative_viscosity_bubbles_model_no.py','pyflowgo/flowgo_relative_viscosity_bubbles_model_mader.py'])
p('C32','BLL model: flow index clamped and final strain-rate check unreachable',
 'The BLL relative viscosity equals the Newtonian factor (1-phi/phimax)^-Bsolid (1-ves)^-Bgas times strain^(n-1) with n in [0.2,1.2] (n=1 when dilute), returns infinity iff vesicle fraction >= 1 and never raises its "strain_rate <= 0" ValueError.',
 'all states and parameters','unreachability and clamping over all inputs',['pyflowgo/flowgo_relative_viscosity_model_bll.py:FlowGoRelativeViscosityModelBLL.compute_relative_viscosity'])
p('C33','Bulk viscosity is positive whenever it is computed',
 'For every combination of melt, relative and bubble models with valid parameters and any state on which computation succeeds below packing, bulk viscosity is > 0 and is the product of the three factors.',
 'every combination of models and every state','combinatorial product of models times a continuum',[ML+'.computes_bulk_viscosity'])
# ---- yield
p('C34','Yield strength is non-negative and grows with cooling and crystals',
 'For all five yield-strength models and crystal fraction >= 0, tho_0 >= 0 (and > 0 except Ryerson at zero crystals), non-decreasing in crystal fraction and non-increasing in core temperature.',
 'all states and parameters','analytic bounds',['pyflowgo/flowgo_yield_strength_model_basic.py','pyflowgo/flowgo_yield_strength_model_dragoni.py','pyflowgo/flowgo_yield_strength_model_dragoni_alone.py','pyflowgo/flowgo_yield_strength_model_ryerson.py','pyflowgo/flowgo_yield_strength_model_bll.py'])
p('C35','Basal shear stress',
 'The basal shear stress is depth*density*g*sin(slope) for every yield-strength model, positive for positive depth, density and gravity and slope in (0, pi), and scales linearly with depth.',
 'all states, terrains and models','analytic',['pyflowgo/flowgo_yield_strength_model_basic.py:compute_basal_shear_stress'])
p('C36','The yield check is exactly tho_0 >= tho_b',
 'yield_strength_notcompatible returns True iff the yield strength is >= the basal shear stress of the same state, for every model, and this is the same pair of numbers used by compute_mean_velocity.',
 'all models, states and terrains','agreement for all inputs',['pyflowgo/flowgo_yield_strength_model_basic.py:yield_strength_notcompatible',ML+'.yield_strength_notcompatible',ML+'.compute_mean_velocity'])
p('C37','A configured vesicle fraction reaches every three-phase model',
 'A user expects the configured vesicle model to drive density, conduction, bubble viscosity and yield strength. The factory gives it to the lava, relative-viscosity and bubble models, but the bll yield-strength model is always built with the default constant 0.1 whatever the configuration says.',
 'every configuration accepted by the factory','wiring claim over all configurations',[F+'.__init__','pyflowgo/flowgo_yield_strength_model_bll.py'])
# ---- vesicle
p('C38','Vesicle fractions stay physical',
 'constant, bimodal return configured values (switch at <= critical distance); variable and poly are clamped to >= 0; variable_bimodal is not clamped and becomes negative for long critical distances; density = dre*(1-vesicle) is positive for vesicle < 1.',
 'all positions and parameters','range claims over all positions',['pyflowgo/flowgo_vesicle_fraction_model_variable.py','pyflowgo/flowgo_vesicle_fraction_model_variable_bimodal.py','pyflowgo/flowgo_vesicle_fraction_model_poly.py','pyflowgo/flowgo_vesicle_fraction_model_bimodal.py',ML+'.get_bulk_density'])
p('C39','Effective crust cover stays a fraction',
 'With alpha <= 0 and cover fraction fc in [0,1], the effective cover is in [0, fc] for every non-negative velocity, equals fc when alpha = 0 or v = 0, and is decreasing in velocity when alpha < 0; the bimodal variant switches parameters strictly after the critical distance.',
 'all velocities and parameters','analytic range',['pyflowgo/flowgo_effective_cover_crust_model_basic.py','pyflowgo/flowgo_effective_cover_crust_model_bimodal.py'])
p('C40','Crust temperature of the Hon models decreases with time and needs positive time',
 'The Hon crust temperature is defined iff time > 0, strictly decreases with time, and equals 576.15 K at one hour; bimodal uses it up to and including the critical distance and a constant afterwards.',
 'all times and positions','domain and monotonicity',['pyflowgo/flowgo_crust_temperature_model_hon.py','pyflowgo/flowgo_crust_temperature_model_bimodal.py'])
# ---- fluxes
p('C41','Radiative flux law',
 'When defined, the radiative flux is sigma*epsilon*width*(f*(Tcrust^4-Tair^4)+(1-f)*(Tmolten^4-Tair^4)) (the fourth root and fourth power cancel); it is defined iff velocity and crust temperature are, both surface temperatures are non-zero and the bracket is >= 0; it is non-negative whenever crust and molten temperatures are at least the air temperature.',
 'all temperatures, cover fractions and widths','exact cancellation and domain for all inputs',['pyflowgo/flowgo_flux_radiation_heat.py'])
p('C42','Characteristic surface temperature lies between crust and molten temperature',
 'A user expects min(Tcrust,Tmolten) <= Tconv <= max. The exponents 1.333 and 0.75 do not invert each other, so the code returns (mean)^0.99975: for equal temperatures T > 1 it returns T^0.99975 < T. It is still bounded by the 0.99975 powers of the two temperatures.',
 'all temperatures and cover fractions','an inequality over a continuum that fails by a small amount',['pyflowgo/flowgo_flux_forced_convection_heat.py:compute_characteristic_surface_temperature'])
p('C43','Conductive flux sign and scaling',
 'Conductive flux is k*(Tcore-Tbase)/(pct/100*depth)*width with k >= 0: it has the sign of Tcore - Tbase, is linear in width, inversely proportional to depth and fails exactly when pct*depth = 0.',
 'all parameters','sign and domain for all inputs',['pyflowgo/flowgo_flux_conduction_heat.py'])
p('C44','Every heat flux is linear in channel width',
 'For all flux models the flux for width a*w is a times the flux for width w from the same state, and the rain flux is independent of the state.',
 'all flux models, states and widths','for all inputs',['pyflowgo/flowgo_flux_heat_loss_rain.py','pyflowgo/flowgo_flux_snyder2002fig4_heat.py','pyflowgo/flowgo_flux_radiation_heat.py'])
p('C45','The heat budget is the sum of its fluxes and the log agrees',
 'The heat budget is the sum over the configured fluxes in order, each evaluated once for the sum and once more for the log. For strain-independent rheologies the logged flux columns add up to the logged heat_budget; for strain-dependent ones they need not.',
 'every flux list and configuration','agreement over all flux lists',[HB+'.compute_heat_budget'])
p('C46','Viscous heating warms the lava',
 'A user expects viscous heating to reduce net heat loss. In the code the viscous term is added with the sign of a loss: it is >= 0 and enlarges the heat budget, so enabling it strictly increases cooling whenever v != 0.',
 'all states and configurations','sign error for all inputs',['pyflowgo/flowgo_flux_viscous_heating.py','pyflowgo/flowgo_heat_budget.py'])
p('C47','Effective emissivities stay between the endmembers',
 'The two-component emissivity lies between the crust and molten emissivities when the cover is in [0,1]; the continuous model gives an emissivity in (0,1) between 0 and 1500 K; the linear model only above 312.6 K: below, its emissivity exceeds 1.',
 'all temperatures in range, all covers','range over a continuum',['pyflowgo/flowgo_flux_radiation_heat_emissivity.py','pyflowgo/flowgo_flux_radiation_heat_emissivity_cont.py','pyflowgo/flowgo_flux_radiation_heat_lin_emi.py'])
# ---- terrain
p('C48','Flat and uphill samples are dropped from the slope profile',
 'Reading a slope file keeps exactly the rows with slope > 0.1 degree, in order, converted to radians; distances and slopes keep the same length.',
 'every slope file','for all files',[T+'.read_slope_from_file'])
p('C49','Running mean: window, bounds, identity',
 'running_mean keeps the length; element i is the mean of the samples with index in [max(0,i-floor(n/2)), min(len-1,i+floor(n/2))]; it stays between the minimum and maximum of the input; n in {0,1} and constant lists are fixed points; a negative n is a ZeroDivisionError; even n uses n+1 points inside.',
 'every list and every window size >= 0','for all lists and windows',[T+'.running_mean'])
p('C50','Slope interpolation',
 'The slope at a profile distance equals the profile slope; inside the profile it lies between the neighbouring slopes, hence positive; beyond the ends it is extrapolated linearly and may become negative.',
 'every strictly increasing profile and every position','for all profiles',[T+'.get_channel_slope',T+'.read_slope_from_file'])
# ---- factory
p('C51','Unknown model names are rejected',
 'The factory succeeds only if every model name is in the documented list; otherwise it raises (NameError unless an earlier step failed) and no lava is built.',
 'every configuration','all strings',[F+'.__init__'])
p('C52','The heat budget contains exactly the activated fluxes',
 'When the factory succeeds, the flux list is exactly radiation (unless "no"), conduction, convection, rain, viscous heating, snyder, in this order, for the switches set to yes; snyder never coexists with radiation or convection.',
 'every configuration accepted','all combinations of switches',[F+'.__init__'])
p('C53','Look-up-table models use the configured table',
 'A user selecting crystallization "melts" expects the table to be used. The factory never reads it: the rate is 0 for every state, so on Python floats (effusion_rate_init = 0) the first step that reaches the temperature update fails with a division by zero; on numpy scalars see C113.',
 'every configuration with "melts"','no test goes through the factory for all configurations',[F+'.__init__','pyflowgo/flowgo_crystallization_rate_model_melts.py'])
p('C54','Parsing of mass_conservation',
 'run_flowgo treats mass_conservation as on exactly for non-empty truthy non-string values and for strings equal to "true" up to case and surrounding blanks; a missing key means off.',
 'every JSON value','all JSON values',[R+'.run'])
p('C55','Missing configuration entries never go unnoticed',
 'If a key required by the selected models is absent, building the simulation raises an error rather than running with a default value.',
 'every configuration and every required key','all configurations',[F+'.__init__',T+'.read_initial_condition_from_json_file','pyflowgo/flowgo_material_lava.py:read_initial_condition_from_json_file'])
# ---- array / outputs
p('C56','Effusion-rate sweep covers the requested range',
 'A user expects the rates first, first+step, ... up to last. For step > 0 dividing last-first this is exact; otherwise the sweep also runs one extra rate strictly above last; step = 0 is an error; the sweep is empty iff last+step <= first.',
 'all integers first, last and positive steps','all integers',['pyflowgo/run_flowgo_effusion_rate_array.py:run_flowgo_effusion_rate_array'])
p('C57','Every run of a sweep has its own result file',
 'The result file names of a sweep are pairwise distinct, equal the names used by RunFlowgo.run and returned by get_file_name_results for the same folder, lava name and rate.',
 'all sweeps, folders and lava names','injectivity over all integers',['pyflowgo/run_flowgo_effusion_rate_array.py:run_flowgo_effusion_rate_array',R+'.get_file_name_results',R+'.run'])
p('C58','A sweep leaves the template configuration intact',
 'A user expects the input JSON to be untouched. The working copy has the same base name, so it overwrites the template exactly when the results folder is the template folder and the sweep is non-empty; the last rate is then left in it. Otherwise the template is untouched.',
 'all paths and sweeps','all paths',['pyflowgo/run_flowgo_effusion_rate_array.py:run_flowgo_effusion_rate_array'])
p('C59','Run-out distance is the last position reached',
 'For the rows of a run with positive step, the maximum logged position is the position of the last row; the run-out reported by run_outs is the rounded last profile distance not beyond that maximum plus the second position. The line also reports the effusion rate at the vent, rounded to a whole number, the depth of the channel, and the width in the second row, one step below the vent.',
 'every run','all runs',['pyflowgo/run_outs.py:get_run_outs'])
p('C60','Every completed run can be post-processed',
 'A user expects run_outs to work on any result file. It fails for results with fewer than two rows and for results whose last row is partial (run ended because the crystal fraction would not increase), because an empty cell is not a number.',
 'every result log','all logs',['pyflowgo/run_outs.py:get_run_outs',L+'.write_values_to_file'])
p('C61','Saving an unedited configuration in the editor changes nothing',
 'Numbers, plain strings and nested objects survive a load/save round trip of the JSON editor unedited, but booleans and null do not: they come back as strings, which switches slope smoothing off. Fields edited by the user change to the typed value and no other field is affected. Two fields shown under one dotted name are confused.',
 'every JSON configuration','all JSON trees',['edit_json.py',T+'.read_initial_condition_from_json_file'])
p('C62','MELTS crystallisation rate is the centred difference of the table',
 'With a table loaded the rate is (phi(T-1)-phi(T+1))/2; it is >= 0 for a table non-increasing in temperature, equals minus the slope on a segment containing both points, and without a table it is 0.',
 'every table and temperature','all tables',['pyflowgo/flowgo_crystallization_rate_model_melts.py'])
p('C63','The result shows one row per step, in order, and no row is rewritten',
 'For a run on an empty log with positive step, the result has one complete row per accepted step, the i-th at x0 + i*dx, in order, each showing what its own step logged; there is one more, partial, row exactly when the last step was given up although the lava was moving.',
 'every run','all runs and numbers of steps',[I+'.single_step',L+'.add_variable',R+'.run'])
p('C64','The result file, read as a table, obeys the conservation laws from row to row',
 'For every run on an empty log with positive step: all complete rows show a positive velocity, the same depth and the same effusion rate; width*velocity*depth is that rate (volume mode) or, times density, the initial mass flux (mass mode); from one row to the next the crystal fraction increases and changes by minus dphi_dtemp times the temperature change, and effusion rate * density * latent heat * increment is heat_budget * step; rows after the first are above the solid temperature, below the yield limit and inside the channel; hence values are the sums of the gradients above.',
 'every run','all runs and lengths',[I+'.single_step',L+'.add_variable',L+'.write_values_to_file'])
p('C65','A new entry added in the editor is saved in the chosen section and nowhere else',
 'An entry added to a section of a configuration is stored in that section with the typed name and value and everything else is as in an unedited save, provided keys have no dots and the outermost section name is not used deeper. Otherwise the entry can be lost (dotted name), stored twice (repeated name) or the save fails (TypeError).',
 'every JSON configuration, section and entry','all JSON trees',['edit_json.py:rebuild_dict','edit_json.py:add_new_entry_to_section'])
p('C66','The command-line script and RunFlowgo compute the same result',
 'Run on the same configuration file, main_flowgo.py and RunFlowgo().run end in the same way (same exception or none), with the same log and the same table written under their respective file names, whenever mass_conservation is missing, true, false, 0, 1, null or a text not saying "true". They read the other values differently (a text saying "true", another number, a non-empty list or object: RunFlowgo conserves mass, the script volume), and then one can fail where the other writes a table.',
 'every configuration file and disk','all JSON values and runs',['main_flowgo.py',R+'.run',I+'.single_step'])
p('C67','What plot_all_results draws, and of which results',
 'For a result file written by this package, the curves drawn are exactly the columns of its rows in order (core, crust, radiation and surface temperatures in degrees Celsius, slopes in degrees), except that the first row is never drawn; a missing radiation, conduction or convection column is drawn as 0. A user expects every completed run to be drawable: it is exactly when the result has at least three rows, its last row is complete, and forced convection or the Snyder flux is active. Otherwise it fails: with a KeyError if neither flux was active or the only row is incomplete, with a ValueError if the last of several rows is incomplete or there is one row, with an IndexError if there are two. Each file is drawn as if alone.',
 'every result of a run and every list of files','all logs and lists of files',['pyflowgo/plot_flowgo_results.py:plot_all_results',L+'.write_values_to_file'])
p('C68','The output of a whole sweep: figures and run-out file',
 'When every run of a sweep logged something, the call ends normally exactly when there is at least one rate, the slope files can be read, and every single result can be drawn and post-processed; the output is one set of curves and one run-out line per rate, in order, each computed from the fresh run at that rate alone. A single result that cannot be drawn loses the whole output; a run that logged nothing is replaced by an older file of that name; an empty range of rates raises UnboundLocalError.',
 'every sweep, template, disk and rate range','all sweeps',['pyflowgo/run_flowgo_effusion_rate_array.py:run_flowgo_effusion_rate_array','pyflowgo/run_outs.py:get_run_outs','pyflowgo/plot_flowgo_results.py:plot_all_results'])
p("C69","Bimodal crystallisation rates switch once, at the configured distance or temperature","With the bimodal model the rate is crystallization_rate_1 up to and including critical_distance and crystallization_rate_2 beyond it; with the bimodal_f_temp model it is rate 1 while the core is at or above critical_temperature and rate 2 below. In the result file the dphi_dtemp column shows exactly this: with positive rates the temperature model switches at most once and never back, and the crystals grown down to a row are rate 1 times the cooling before the switch plus rate 2 times the cooling after it.","every state, and every run with either model (all parameters, any number of steps)","all states and all runs",["pyflowgo/flowgo_crystallization_rate_model_bimodal.py:compute_crystallization_rate", "pyflowgo/flowgo_crystallization_rate_model_bimodal_f_temp.py:compute_crystallization_rate", "pyflowgo/flowgo_integrator.py:FlowGoIntegrator.single_step"])
p("C70","The result file is the table of an explicit Euler scheme: the meaning of every column","For every run there is one sequence of lava states, starting with the initial state, such that every complete row of the result shows, under the documented column names, the state and the quantities computed from that state alone (velocity, width from volume or mass conservation, slope, viscosity, density, vesicle fraction, crust temperature, crust cover at the velocity, yield strength, basal stress, heat budget, gradients, cooling rate per minute, effusion rate, depth), and the next state is the explicit Euler step: crystals and temperature by gradient times step, position by the step, time by step over velocity. With a strain-independent rheology the strain rate shown is 3 v / depth, the viscosity is the one used in the step, and the flux columns show the documented flux laws and add up to heat_budget.","every run that ends normally with a positive step and a fresh log, any number of steps, all models","all runs of any length",["pyflowgo/flowgo_integrator.py:FlowGoIntegrator.single_step", "pyflowgo/flowgo_heat_budget.py:FlowGoHeatBudget.compute_heat_budget", "pyflowgo/flowgo_logger.py:FlowGoLogger"])
p("C71","The heat-flux columns of the result file","In every complete row of the result of a run of a lava whose viscosity does not depend on the strain rate, each column that is not one of the 21 written by the integrator shows what the configured list of heat fluxes wrote last under that name for the state of the row: effective radiation temperature (fourth root of the radiant exchange), effective emissivity, spectral radiance (Planck's law, pixel shares), convective surface temperature, Snyder temperature, every flux in its own column, and zero where the convection or Snyder class blanks a column; a column no flux writes is empty. With C70 this fixes every cell of the table.","all strain-independent lavas, flux lists, model parameters, initial states, step sizes > 0, number of steps and every row","the table depends on the whole history of calls and on which flux writes a column last",["pyflowgo/flowgo_flux_radiation_heat.py: compute_flux, _compute_spectral_radiance", "pyflowgo/flowgo_flux_forced_convection_heat.py: compute_flux", "pyflowgo/flowgo_flux_snyder2002fig4_heat.py: compute_flux", "pyflowgo/flowgo_heat_budget.py: compute_heat_budget"])
p("C72","Spectral radiance","The Planck term used by the radiation classes is positive and strictly increasing in temperature; the spectral radiance column of every complete row is the pixel mixture of molten lava, crust and snow background; it increases with both surface temperatures, decreases with the crust cover, and is positive whenever the surfaces are at 258 K or more with emissivities of at least 0.1. The shares of the pixel add to 1 but the background share is negative as soon as the channel is wider than the pixel (30 m for two classes, 0.1 m for the other two), and the radiance can then be negative.","all positive temperatures, covers in [0,1], widths, pixel sides, emissivities; all runs of strain-independent lavas with a radiation class, every row","monotonicity and sign are statements about all temperatures, widths and covers, and the column is a function of the whole run",["pyflowgo/flowgo_flux_radiation_heat.py: _compute_spectral_radiance", "pyflowgo/flowgo_flux_radiation_heat_emissivity_cont.py: _compute_spectral_radiance", "pyflowgo/flowgo_flux_radiation_heat_lin_emi.py: _compute_spectral_radiance"])
p("C73","Profile files are read sample by sample","A slope profile written with a header line and tab-separated columns gives the terrain exactly the samples of its rows, whichever of the three line endings is used and with or without a final end-of-line; extra columns are ignored. A line is skipped exactly when its fifth field is a number up to 0.1, and every other line must be a complete sample. A line with fewer than five columns, such as a blank (also trailing) line, makes the file unreadable: reading stops at the first unreadable line, with an IndexError if a column is missing and a ValueError if it is not a number. The run-out table and the plots read the same samples, including the flat ones. The rows of the field crust profile are its distances and temperatures.","every text, header, row, field, line ending and number parser","Unit tests read one file with one line-ending style; the claim is about every text a user or spreadsheet can write.",["pyflowgo/flowgo_terrain_condition.py:read_slope_from_file", "pyflowgo/run_outs.py:get_run_outs", "pyflowgo/plot_flowgo_results.py:plot_all_results", "pyflowgo/flowgo_crust_temperature_model_field.py:read_crust_temperature_from_file"])
p("C74","The result file reads back as the log","Writing records with the csv writer and reading them with the csv reader gives the same records, whatever commas, quotes, line feeds or empty fields they contain (a carriage return comes back as a line feed). For every log, the dictionaries obtained from the text of the result file are its rows in order, each column name carrying the text of the logged value or the empty text; float(row[name]) gives the logged numbers, ValueError on an empty cell and KeyError on an unknown name. This holds on Windows too, where empty records are interleaved. The csv reader accepts every text.","every list of records, every log, both newline conventions, every number format that float reads back","Round-tripping is a statement about all texts; quoting and newline translation fail on inputs no test contains.",["pyflowgo/flowgo_logger.py:write_values_to_file", "pyflowgo/run_outs.py:get_run_outs", "pyflowgo/plot_flowgo_results.py:plot_all_results"])
p("C75","The run-out figure shows the run-out table","The run-out file has one line per result file, in order, every number under its own heading and the lava name as flow id; the figure drawn from it shows, in order, the run-out distance against the effusion rate of every line, titled with the lava name. Without any line there is no figure (UnboundLocalError); a call that ends normally had at least one result file.","every run-out table, lava name and number format","The file is written and read back within one call; tests would check one name and one list.",["pyflowgo/run_outs.py:get_run_outs"])
p("C76","Look-up tables mean what their files say","A crust-temperature profile (distance, degrees Celsius) is accepted exactly when it has at least two rows with strictly increasing distances; the crust temperature at any position is then the linear interpolation of the profile plus 273.15, at a listed distance the listed value, whatever constant is configured; without a profile it is the constant. The profile file may use any line ending and extra columns. A MELTS table gives the same look-up whatever the order of its columns and whatever further columns it has.","every table, position, configured constant, file text, line ending, column order","A test checks one shipped table at a few points; the claim ranges over all tables, texts and positions.",["pyflowgo/flowgo_crust_temperature_model_field.py:read_crust_temperature_from_file", "pyflowgo/flowgo_crust_temperature_model_field.py:compute_crust_temperature", "pyflowgo/flowgo_crystallization_rate_model_melts.py:read_crystal_from_melts"])
p("C77","The two buttons of the window do what they report","With a path missing both buttons only ask for it and change nothing. After a run that ended normally the name computed for the result file is the name of the file the run wrote. When the single-run button reports success the run ended normally and the figures show the file of that name: the log of this run, or, if the run logged nothing, an older file of the same name; if the figures cannot be drawn the result of the run is complete nevertheless. A run that fails is never reported as completed. A rate that is not a number is reported and nothing is run. Numeric rates are cut off towards zero and the sweep of these whole numbers is made with the configured slope file; a step smaller than one therefore ends in a ValueError before any run.","every configuration, folder, text of the three fields and state of the file system","Every combination of inputs and files already present; the figures depend on what the run wrote.",["main_run_and_plot_flowgo_GUI.py:run_flowgo_single", "main_run_and_plot_flowgo_GUI.py:run_flowgo_effusion", "pyflowgo/run_flowgo.py:get_file_name_results"])
p("C78","Vent lists and per-vent configurations","The vent list of a semicolon-separated table has one name per row, in order, an underscore followed by the text of its flow_id column, wherever that column stands and whatever the other columns contain; a table with rows but without that column raises KeyError. The configuration made for a vent has the given name and slope file and equals the template in every other entry; no other file changes; the call succeeds exactly on a template that is a JSON object. A run of it writes a file named after the vent.","every table, template, name, path and state of the file system","Ranges over all tables, quoting and templates.",["pyflowgo/run_flowgo_effusion_rate_array.py:make_vent_list", "pyflowgo/run_flowgo_effusion_rate_array.py:make_new_json", "pyflowgo/run_flowgo.py:get_file_name_results"])
p("C79","Configuration files are read and written faithfully as text","json.load accepts exactly the texts of the JSON grammar (with Python's NaN and infinities) and gives the value the grammar gives; every other text is refused with a ValueError, and no text has two values. Line endings do not matter. In a loaded object all keys are distinct and a repeated key has its last value. What json.dump writes is read back as the same value on both platforms, and it is written in printable ASCII whatever the names contain, indented by four spaces per nesting level. Rewriting a file (a sweep's working copy, a vent's configuration) gives a file whose updated entries have their last new value and whose other entries are those of the old file; it succeeds exactly on a JSON object.","every text, every value with any nesting, keys, characters and numbers, every list of updates, both newline conventions, every number format that float reads back","Round trips and grammar conformance range over all texts and all nested values; tests contain a handful of files without escapes, surrogates or repeated keys.",["pyflowgo/run_flowgo_effusion_rate_array.py:make_new_json", "pyflowgo/run_flowgo_effusion_rate_array.py:run_flowgo_effusion_rate_array", "pyflowgo/run_flowgo.py:run", "edit_json.py:open_editor", "edit_json.py:save_changes"])
p("C80","What an unedited save does to a configuration file, field by field","Opening a configuration file (a JSON object whose keys are non-empty and without dots) in the editor and saving it unedited never fails. The new file reads as the old configuration except that a field which is not an integer, a finite number, a text that is not itself JSON, or a list of such elements comes back as the text shown in its entry (None, True, nan, ['a', 'b']), and a text that is JSON comes back as the value it denotes. The file reads the same exactly when every field is of the first kind. If no text is JSON, a second unedited save writes the same file again.","every text of a configuration file, every nesting, every version of Python's OrderedDict repr, both platforms' line endings","all texts and all values; depends on which of Python's str outputs happen to be JSON",["edit_json.py:render_json", "edit_json.py:rebuild_dict", "edit_json.py:save_changes"])
p("C81","A run from text to text","When `run(json_file, folder)` succeeds, the configuration file is a JSON text; the position, crystal content, eruption temperature, step size, latent heat and channel length of the run are the numbers at their entries in that text, and the terrain is read from the tab-separated text of the slope file it names. With a positive step size either nothing is written, or exactly one file is added to the disk, named after the lava name and the effusion rate; read back with csv.DictReader and float it has one line per position x0, x0+dx, ..., and the numbers it shows are, up to the rounding of printed numbers, a profile that starts at the configured state and obeys from line to line the crystallisation, cooling, heat-balance and conservation laws, with the slope of the slope file in every line.","every disk of texts, every configuration text, every platform (line ends, number format, rounding), every depth grid and run length","Unit tests check single readers and writers on sample files; that the pieces compose, for every configuration text and every length of run, is a statement about all files.",["pyflowgo/run_flowgo.py: RunFlowgo.run", "pyflowgo/flowgo_logger.py: write_values_to_file", "pyflowgo/flowgo_terrain_condition.py: read_slope_from_file", "pyflowgo/flowgo_integrator.py: single_step"])
p("C82","What a run depends on and what it changes","The outcome of a run and the text it writes depend only on the value of the configuration file and on the fields of the data lines of the slope and crust-temperature files it may read: layout, line ends, headers and all other files are irrelevant. A run that fails (missing file, text that is not JSON, missing entry, numeric error) leaves every file as it was; a successful run adds at most one file and changes no other; repeating a run whose result was not written over one of its inputs writes the same text again.","every pair of disks, every configuration, every platform, depth grid and run length","Independence from everything else on the disk and reproducibility are statements about pairs of executions on all disks.",["pyflowgo/run_flowgo.py: RunFlowgo.run", "pyflowgo/flowgo_terrain_condition.py: read_slope_from_file", "pyflowgo/flowgo_crust_temperature_model_field.py: read_crust_temperature_from_file", "pyflowgo/flowgo_model_factory.py: FlowgoModelFactory"])
p("C83","Every run ends in finite arithmetic","In an arithmetic with finitely many numbers (floats) the integration loop always ends, normally or with an exception, whatever the configuration, the step size (also zero or negative) and the channel length: the crystal fraction has to increase strictly at every accepted step, so that the number of iterations is at most one more than the number of representable crystal fractions above the initial one.","every rounding function with finitely many values, every integrator, every state","A loop without a counter has to be shown to end from every state; a test can only show that one run ended.",["pyflowgo/flowgo_integrator.py: FlowGoIntegrator.single_step", "pyflowgo/run_flowgo.py: RunFlowgo.run"])
p("C84","The signs and orders of a run survive rounding","In any arithmetic with a monotone, idempotent, odd rounding: along the accepted steps of a run with a non-negative step the crystal fraction increases strictly and position and time never decrease; the velocity of an accepted step is positive; with a positive crystallisation rate an accepted step never warms the core, its temperature gradient is negative and its heat budget positive; the velocity loop needs at most two passes and never raises RuntimeError.","every rounding function, every configuration, every run","Rounding can break an inequality that holds for real numbers on a single input out of 2^64.",["pyflowgo/flowgo_integrator.py: FlowGoIntegrator.single_step", "pyflowgo/run_flowgo.py: RunFlowgo.run", "pyflowgo/flowgo_material_lava.py: FlowGoMaterialLava.compute_mean_velocity"])
p("C85","Conservation laws up to a fixed number of roundings","With relative rounding error u: logged width * velocity * depth equals the effusion rate of the run up to 2 roundings at every row, hence any two rows agree up to 4 however many steps lie between them; with mass conservation width * velocity * depth * density equals the mass flux up to 3; the crystallisation gradient is heat / (effusion rate * density * latent heat) up to 5 and minus rate times the temperature gradient up to 1; crystal fraction and temperature advance by gradient * dx with 2 roundings. k roundings mean a relative difference of at most (1-u)^-k - 1.","every accurate rounding, every configuration, every run, every pair of rows","That errors do not accumulate over a run of any length is not visible in finitely many runs.",["pyflowgo/flowgo_integrator.py: FlowGoIntegrator.single_step", "pyflowgo/run_flowgo.py: RunFlowgo.run", "pyflowgo/flowgo_logger.py: FlowGoLogger.add_variable"])
p("C86","Positions and rows in rounded arithmetic","After k accepted steps the position differs from x0 + k*dx by at most k (1+u)^k (u(|x0| + k|dx|) + eta). As long as the rounding error at the new position is smaller than dx a step is felt (the position increases), and if all steps are felt the log has one row per accepted step, in order, with all columns. A step that is not felt (position + dx rounds to position) makes the next accepted step overwrite its row.","every accurate rounding, every configuration, every run","The row of a step is found by equality of floats; that this never merges two rows depends on all positions a run can reach.",["pyflowgo/flowgo_integrator.py: FlowGoIntegrator.single_step", "pyflowgo/run_flowgo.py: RunFlowgo.run", "pyflowgo/flowgo_logger.py: FlowGoLogger.add_variable"])
p("C87","Costa relative viscosity: the right fit, total, increasing, past every packing limit","With relative_viscosity_model costa1 or costa2 and strain_rate 1.0 or 0.0001, every state with crystal fraction >= 0 is accepted and gets the law of Costa et al. (2009) with the four constants of Cimarelli et al. (2011) for that particle shape and strain rate; the value is 1 without crystals, at least 1, strictly increasing in the crystal fraction with no packing limit, and depends on nothing else of the state. The unused class 'costa' returns exactly costa1's numbers, and None where costa1 yields no number.","every crystal fraction >= 0 (also beyond 1), both particle shapes, both strain-rate parameters","the law contains erf of a capped argument; a table of values cannot establish monotonicity or totality on a continuum",["pyflowgo/flowgo_relative_viscosity_model_costa1.py: compute_relative_viscosity", "pyflowgo/flowgo_relative_viscosity_model_costa2.py: compute_relative_viscosity", "pyflowgo/flowgo_relative_viscosity_model_costa.py: compute_relative_viscosity"])
p("C88","Mader relative viscosity: law, regimes, shear thinning","With relative_viscosity_model mader, below packing and at positive strain rate the value is Maron-Pierce with the Mueller packing limit, times strain^(n-1) exactly when the crystal fraction is at least half the packing limit and the flow index n is below 0.9; outside that regime the strain rate plays no role; inside it the value strictly decreases with the strain rate; up to strain rate 1 it is at least 1 and strictly increasing in crystals; at high strain rates it falls below any positive bound, so crystal-rich lava becomes thinner than its own melt.","every positive aspect ratio, every crystal fraction below packing, every positive strain rate","a law with regime switches over three real arguments; the failure at high strain is an asymptotic statement",["pyflowgo/flowgo_relative_viscosity_model_mader.py: compute_relative_viscosity"])
p("C89","An effusion-rate sweep on the texts of the files","When run_flowgo_effusion_rate_array's run part ends normally, the result files on the disk are, for each rate in order, the very texts that a single stand-alone run of the template with that effusion rate would write on the initial disk; their names are distinct and are the names returned. The working copy of the template, and these results, are the only files that change; in particular the template and every other file keep their text. This holds unless a result or the working copy is written over a file the runs read.","every template text, folder, rate range, platform, disk of texts, depth grid and run length","Independence of the runs of one sweep (shared working copy, results written between runs) is a statement about pairs of executions on every disk.",["pyflowgo/run_flowgo_effusion_rate_array.py:run_flowgo_effusion_rate_array", "pyflowgo/run_flowgo.py:RunFlowgo.run", "pyflowgo/run_flowgo.py:get_file_name_results"])
p("C90","Run-outs computed from the texts of the result files","get_run_outs reports on a result file exactly when each of its lines has a number in each of the ten columns that are read, there are at least two lines, and the profile has a readable sample up to one step beyond the largest position; the line then has the rounded first effusion rate, depth and width of the second line, and the rounded coordinates and distance of the first and last sample up to there. If all result files can be reported on (and there is one) exactly one file is added, a table with one line per result in order under the right headings, and the figure shows run-out against effusion rate of all of them; otherwise the call raises at the first that cannot, leaving the table with the lines before it. For a result written by a run the run-out is the last profile sample at most (last + second position) away.","every list of result files, texts, slope profile, number format, rounding, lava name and disk","The function reads back what another part wrote, with rounding in between; all texts and all lists of files are ranged over.",["pyflowgo/run_outs.py:get_run_outs", "pyflowgo/flowgo_logger.py:write_values_to_file"])
p("C91","The figures drawn from the texts of the result files","plot_all_results ends normally exactly when the configuration file is a JSON object whose slope_file is a profile with readable distance, slope and altitude in each line, and every result file, taken by itself, has at least three lines, an effusion rate in the first, and a number in each of the required columns of all others. It then draws the profile sample by sample and, for each file in order, one point per line from the second on: the printed number of the right column, temperatures in degrees Celsius and slopes in degrees, 0 where an optional heat flux column is missing or blank. For the result of a run the points are at x0 + dx, x0 + 2 dx, ... and show, up to printing, a profile obeying the laws of the flow; the label is <lava>_<rate>m3s, and the runs of a sweep have different labels.","every list of result files, texts, configuration, number format and disk","The function reads back what another part wrote, with printing and rounding in between, and carries a variable from one file to the next; all texts and all lists of files are ranged over.",["pyflowgo/plot_flowgo_results.py:plot_all_results", "pyflowgo/flowgo_logger.py:write_values_to_file"])
p("C92","A complete effusion-rate sweep, from texts to figures","When run_flowgo_effusion_rate_array ends normally there was at least one rate and, for each rate in order, the result on the disk is the text a stand-alone run of the template with that rate writes (or, if that run writes none, the one that was there before); the labelled curves, the line of the run-out table and the point of the run-out figure for that rate are those of that very text; nothing else on the disk changed but the working copy and the run-out table. This also holds if the template lies in the output folder, where the working copy replaces it. Conversely a sweep whose runs end normally completes if each result can be drawn and reported on. If the post-processing fails, the results of the runs are still on the disk unchanged.","every template text, output folder, slope profile, rate range, platform, number format, disk, depth grid and run length","Composition of runs, plots and run-outs through files, with a shared working copy that may be the template itself: all disks and all failure points are ranged over.",["pyflowgo/run_flowgo_effusion_rate_array.py:run_flowgo_effusion_rate_array", "pyflowgo/plot_flowgo_results.py:plot_all_results", "pyflowgo/run_outs.py:get_run_outs", "pyflowgo/run_flowgo.py:RunFlowgo.run"])
p("C93","Results drawn among field measurements","main_plot_results_field_data.py ends normally exactly when there is at least one result, the configuration is a JSON object (its slope_file is read and then not used), the slope profile and the three tables of measurements are readable, and every result has at least two lines with a number in each of twenty columns. It then draws the profile sample by sample, the measurements line by line and, unlike plot_all_results, every line of each result, the vent included. A result of a run has the columns exactly when its heat balance has conduction and either the Snyder model or both forced convection and a radiation model; its points are x0, x0+dx, ... and obey the laws of the flow. The label is not the file name: 'results_' is dropped everywhere and characters of '.csv' are stripped from both ends, so the s of m3s is lost and two results can share a label; results of one lava at different rates do not.","every list of results, every disk, platform and number format; every run, configuration and heat balance; every lava name and rate for the labels","The condition for drawing ranges over all texts and all heat balances, and the labels over all names; tests see the one path written in the script.",["main_plot_results_field_data.py", "pyflowgo/flowgo_logger.py:FlowGoLogger.write_values_to_file", "pyflowgo/run_flowgo.py:RunFlowgo.run"])
p("C94","Entries of the configuration the selected models do not use have no effect","Let two configurations select the same models and agree on a list of entries that can be read off the selection: the names of the models, the channel (depth, width, gravity, length, smoothing), the position and time of the vent, lava_name, slope_file, step_size and effusion_rate_init, the switch mass_conservation, and the parameters the selected models use. Then run() gives the same outcome from both, with the same log and the same result file, or both runs raise before they change anything. Everything else in the file may differ or be absent. Some entries have to be present (as numbers) although their value is ignored: max_packing unless the relative viscosity is kd, mp or bll, crust_temperature with the hon crust, crust_temperature_1 with the bimodal crust; of melts_look-up_table and crust_temperature_file only the presence matters. The same holds between two files on disks whose profiles have the same data lines.","all pairs of configurations (and of texts), all selections of models, all environments, folders, logs and step budgets, every number type","It compares arbitrary pairs of configurations; a test compares two files.",["pyflowgo/flowgo_model_factory.py:FlowgoModelFactory", "pyflowgo/run_flowgo.py:RunFlowgo.run", "pyflowgo/flowgo_material_lava.py", "pyflowgo/flowgo_crust_temperature_model_field.py", "pyflowgo/flowgo_crystallization_rate_model_melts.py"])
p("C95","What the mass_conservation switch does and does not do","With a constant vesicle fraction, a relative-viscosity model other than bll and mader, a bubble model other than mader, a non-zero density and a non-zero effusion_rate_init, mass_conservation has no effect: configurations that differ in it give the same outcome, log and result file. In general, with the switch on, every complete row of a run has width*velocity*depth*density equal to the effusion_rate column times the density at the vent, so its volume flux is effusion_rate times the ratio of the densities; but the heat lost is charged to effusion_rate times the density of the row, not to the conserved mass flux: mass flux * latent heat * (crystals grown) = heat_budget * dx * (density at the vent / density of the row).","all configurations and environments, all grids of depths, all step budgets, all lavas whose viscosity does not depend on the strain rate, every row of every run","A relation between all pairs of runs and a law for every row; tests run one configuration.",["pyflowgo/flowgo_integrator.py:FlowGoIntegrator.single_step", "pyflowgo/flowgo_integrator.py:FlowGoIntegrator.init_effusion_rate", "pyflowgo/run_flowgo.py:RunFlowgo.run"])
p("C96","max_channel_length is only a cut-off","Let two configurations differ only in max_channel_length (L in the first, L' <= L in the second), in entries no chosen model reads, and in lava_state.time when the crust model is neither hon nor bimodal; step_size > 0. If the run with L ends normally, so does the run with L', its log is the first K rows of the other log, K being the least j >= 1 with position + j*step_size >= L', and its result file has the same name and is the beginning of the other file: the same header and the first K rows, character by character. One of the runs writes no file exactly when the other writes none. If the run with L raises an exception or does not end within a budget of steps, the run with L' does the same or ends normally after exactly K rows.","all configurations and environments, all lengths L' <= L, all positive step sizes, all vent positions and times, all grids of depths, all step budgets, every text format","A relation between all pairs of runs; a test compares two of them.",["pyflowgo/flowgo_integrator.py:FlowGoIntegrator.single_step", "pyflowgo/flowgo_terrain_condition.py:FlowGoTerrainCondition.read_initial_condition_from_json_file", "pyflowgo/run_flowgo.py:RunFlowgo.run", "pyflowgo/flowgo_logger.py:FlowGoLogger.write_values_to_file"])
p("C97","What the configured effusion rate and the configured depth determine","Let two configurations differ only in effusion_rate_init, in terrain_conditions.depth and in entries no chosen model reads, with models that do not read the strain rate (no bll or mader relative viscosity) and depths that are numbers other than zero. (1) If both have the same effusion rate, other than zero, the depth has no effect: the runs end in the same way and leave the same log and the same result file, or both fail before changing anything. (2) If the rates are other than zero, possibly different, and both runs end normally and show the same channel_depth at the vent, the logs are equal and the two result files contain the same table (only their names, which contain the rate, differ): an effusion rate acts only through the depth it selects from the grid. (3) The depth shown at the vent is not smaller for a larger rate. (4) Without mass conservation, the rate 0 with the depth that was selected for some rate as configured depth runs to the same end with the same log and the same table.","all configurations and environments, all rates and depths, all nonempty grids of depths (in increasing order for (3); the grid of the program is one), all positive step sizes and vent positions for (2)-(4), all step budgets","A relation between all pairs of runs; a test compares two of them.",["pyflowgo/flowgo_integrator.py:FlowGoIntegrator.initialize_state", "pyflowgo/flowgo_integrator.py:FlowGoIntegrator.init_effusion_rate", "pyflowgo/flowgo_integrator.py:FlowGoIntegrator.single_step", "pyflowgo/flowgo_terrain_condition.py:FlowGoTerrainCondition.read_initial_condition_from_json_file", "pyflowgo/run_flowgo.py:RunFlowgo.run"])
p("C98","Results do not depend on the origin of the position coordinate","Take a configuration with a constant or bimodal vesicle fraction, and the same configuration with the positions measured from another origin: lava_state.position, terrain_conditions.max_channel_length, lava_state.critical_distance and the distance columns of the slope file and of the crust-temperature profile are all delta larger, all other relevant entries are the same. In exact arithmetic the two runs end in the same way (both succeed, both fail with the same error during the simulation, or both fail before changing anything), and their logs and result files are the same except that every position is delta larger. The laws variable, variable_bimodal and poly for the vesicle fraction are formulas in the coordinate itself: with the law variable, a fraction that is positive before and after the move changes.","all real shifts, configurations, directories of files, previous logs and results, grids of candidate depths, step budgets","A relation between all pairs of runs under all shifts; a test compares two of them.",["pyflowgo/flowgo_integrator.py:FlowGoIntegrator.single_step", "pyflowgo/flowgo_terrain_condition.py:FlowGoTerrainCondition.get_channel_slope", "pyflowgo/flowgo_terrain_condition.py:FlowGoTerrainCondition.read_slope_from_file", "pyflowgo/flowgo_logger.py:FlowGoLogger.add_variable", "pyflowgo/flowgo_crystallization_rate_model_bimodal.py", "pyflowgo/flowgo_effective_cover_crust_model_bimodal.py", "pyflowgo/flowgo_crust_temperature_model_bimodal.py", "pyflowgo/flowgo_vesicle_fraction_model_bimodal.py", "pyflowgo/flowgo_vesicle_fraction_model_variable.py", "pyflowgo/run_flowgo.py:RunFlowgo.run"])
p("C99","The result table converges to the flow equations at first order in the step size","In exact arithmetic, take a completed run of a lava whose rheology does not use the strain rate, and a solution of the differential equations along the channel (temperature, crystal fraction and time per metre: total heat flux over effusion rate, density, latent heat and crystal growth; 1/velocity) that starts from the vent state. If on a region that contains the rows and the solution the right-hand side is K-Lipschitz in temperature and crystal fraction, and the slopes of the solution vary by at most M per metre, then every row is within M*step_size/(2K)*(exp(K*distance)-1) of the solution at its position, in temperature, crystal fraction and time. Halving step_size halves the bound, and the tables of two runs with step sizes a and b differ, wherever both show a number, by at most M*(a+b)/(2K)*(exp(K*distance)-1). For lava cooled by rain a solution exists, and the runs with step length/n, for every n, complete with n rows that are within C/n of it.","all step sizes, models, vent states, terrains, numbers of steps and solutions","A statement on the limit of infinitely many runs with ever smaller steps, each of any length.",["pyflowgo/flowgo_integrator.py:FlowGoIntegrator.single_step", "pyflowgo/flowgo_integrator.py:FlowGoIntegrator.initialize_state", "pyflowgo/flowgo_heat_budget.py:FlowGoHeatBudget.compute_heat_budget", "pyflowgo/flowgo_material_lava.py:FlowGoMaterialLava.compute_mean_velocity", "pyflowgo/run_flowgo.py:RunFlowgo.run"])
p("C100","What is left of a result file that was cut off while being written","If only the first n characters of a result file reached the disk (the program was killed, the disk was full), for any n, then the file can still be read: it gives the rows written so far, in order and unchanged, and possibly one row more, which was cut in some column: the columns before have their values, of the value in that column some characters are missing, the columns after are None. No completely written row is lost; a file cut in its header has no rows. Reading a column gives the value, the number denoted by what is left of it (which can be a wrong number, silently) or a ValueError, or a TypeError, depending on whether the column is before, at or behind the cut. The same holds for any csv file of plain fields.","all logs, columns, number texts, both platforms and all points of interruption","A crash can cut the file after any character of any file; tests can only try a few.",["pyflowgo/flowgo_logger.py:FlowGoLogger.write_values_to_file", "pyflowgo/run_outs.py:RunOuts.get_run_outs", "pyflowgo/plot_flowgo_results.py:plot_all_results"])
p("C101","Post-processing never shows a wrong number from a cut result file","Take the result file of any completed run of which only the first n characters are on the disk. plot_all_results, the run-out table and the field-data plots on this file either raise an exception or give exactly what they give for the file of the first m complete rows, for some m. The reason is the order of the columns: tho_0 and tho_b are the last ones and are read from every row, so a row in which a drawn value was cut is refused.","all runs, configurations, profiles, platforms, number formats and all points of interruption","A crash can cut the file after any character; that no value is taken from a half-written cell has to hold for every cut of every result.",["pyflowgo/flowgo_logger.py:FlowGoLogger.write_values_to_file", "pyflowgo/flowgo_integrator.py:FlowGoIntegrator.single_step", "pyflowgo/run_outs.py:RunOuts.get_run_outs", "pyflowgo/plot_flowgo_results.py:plot_all_results", "main_plot_results_field_data.py"])
p("C102","A configuration file that was cut off is never mistaken for a configuration","If only the first characters of a JSON configuration file are on the disk (a crash or a full disk while the editor, a sweep or a vent loop was writing it), json.load refuses it with a ValueError, unless nothing but white space behind the closing brace is missing, in which case it is read as the same configuration. A file that json.dump wrote ends with its closing brace, so the loss of a single character is noticed, on both platforms. With such a file every program stops with a ValueError before it runs, draws or writes anything: run, both sweeps, the result plots, the field-data plots, the rewriting of a configuration and the editor.","every text of a JSON object with any nesting, strings, numbers, white space and line ends; every cut position; every disk, folder, number format and program argument","Cut positions and file contents are unbounded; that no beginning of an object is itself a JSON text needs an induction over the grammar.",["pyflowgo/run_flowgo.py:run", "pyflowgo/run_flowgo_effusion_rate_array.py:make_new_json", "pyflowgo/run_flowgo_effusion_rate_array.py:run_flowgo_effusion_rate_array", "pyflowgo/plot_flowgo_results.py:plot_all_results", "edit_json.py:save_changes"])
p("C103","The scripts that run and plot end exactly when the run does, and draw its result or, silently, an older one","main_run_flowgo.py ends normally exactly when the run does, and prints the name under which the run stored its result. main_run_and_plot_flowgo.py draws two results: the one the run has just written, under its name, and the one to compare with; the first curves obey the laws of the model from the second row on. If the run logged nothing, an older file of the same name is drawn in its place. A script that fails has left the disk as it was, or the complete result of the run is on it. main_plot_flowgo_results.py draws the listed results in their order exactly when configuration, slope profile and all results are readable.","for every configuration text, disk content, results folder that keeps results and configuration apart, number format and list of results","The scripts have no tests; what is on the disk before they start and whether the run logs anything are unbounded inputs.",["main_run_flowgo.py", "main_plot_flowgo_results.py", "main_run_and_plot_flowgo.py", "pyflowgo/run_flowgo.py:RunFlowgo.get_file_name_results", "pyflowgo/plot_flowgo_results.py:plot_all_results"])
p("C104","The case studies draw the run and the field data as they are in the files","The scripts of the Venus and Mauna Ulu studies end normally exactly when the run does, every table of field data has a number in each of its columns, the slope profile is readable, and the result of the run and those to compare with have at least two lines with a number in each of the 22 (Venus) or 20 (Mauna Ulu) columns; curves, tables and profile are then those of the files, in kelvin in the Venus script. A run has all columns exactly when its heat balance has conduction and, besides, the Snyder model or both forced convection and radiation. The marks of the run-out take their heights from the result compared with, not from the run. Labels are lava name and rate if the lava's name starts with none of the characters taken off; otherwise two lavas can share a label.","for every configuration text, disk content, results folder apart from the configuration, and list of results","The scripts have no tests; the result and field tables are arbitrary texts.",["Venus/main_flowgo_Venus_Tolba.py", "MaunaUlu74/main_flowgo_MU74_paper.py", "pyflowgo/run_flowgo.py:RunFlowgo.run", "pyflowgo/run_flowgo.py:RunFlowgo.get_file_name_results"])
p("C105","A wider channel fed proportionally faster carries the same flow","Multiply the configured width of the channel and the configured effusion rate by the same positive factor k (a rate of zero stays zero). The run ends in the same way (both raise, both go on, or both end) and shows the same rows: positions, times, temperatures, crystal contents, viscosities, velocities, depths, stresses and every other column are unchanged, while the width, the effusion rate, the heat budget and every heat flux are exactly k times as large, and the radiance above that of a pixel without lava is k times as large (so the radiance itself is not proportional to the width). Run-out distance and reason for stopping do not depend on k.","for every k > 0, every configuration, choice of models, slope profile, candidate depths, number of steps and earlier log, in exact arithmetic","a relation between two whole runs for every factor and configuration; a test compares two runs",["pyflowgo/flowgo_integrator.py:single_step", "pyflowgo/flowgo_integrator.py:init_effusion_rate", "pyflowgo/flowgo_heat_budget.py:compute_heat_budget", "pyflowgo/flowgo_heat_budget.py:FlowGoHeatBudget.compute_heat_budget", "pyflowgo/run_flowgo.py:run"])
p("C106","How long and how far a flow can run","In a run that conserves volume, up to every row the latent heat of the crystals grown so far per square metre of channel (density x depth x latent heat x crystals grown, step by step) is the heat shown per square metre (heat_budget / channel_width) times the time the steps took. Hence, if no row shows a density above rho and every row shows a heat loss of at least q watt per square metre, q times the duration of the flow is at most rho x depth x latent heat x the growth of the crystal fraction, whatever the velocity; with the basic crystallisation model no complete row is older than rho x depth x latent heat x crystals_grown / q, and if no row shows a velocity above V, none lies further from the vent than V times that. For a flow that radiates from a crust of constant temperature, q may be sigma x epsilon x (Tc^4 - Tair^4). With mass conservation the same account holds with the conserved mass flux on the side of the heat and effusion rate times density on the side of the crystals: the bound on the duration is multiplied by effusion rate x rho / mass flux.","every configuration of the models, every terrain with positive width and depth, every length of run, every rho, q and V that bound the columns of the result","A bound over all runs and all rows, obtained by summing over the steps; a test sees one run.",["pyflowgo/flowgo_integrator.py: single_step", "pyflowgo/flowgo_crystallization_rate_model_basic.py", "pyflowgo/flowgo_flux_radiation_heat.py"])
p("C107","Separate processes do not disturb each other","Start any number of runs (RunFlowgo().run) and sweeps (run_flowgo_effusion_rate_array.StartFlowgo) at the same time, each in a process of its own, on one disk. Each opening of a file is a step of its own (a run opens its configuration a dozen times), and writing a file is several steps: it is emptied, then filled piece by piece. If no file that one of them may write -- the result files named after lava and rate, and for a sweep the working copy of the template in the results folder -- is one that another may read or write (its configuration or template, its working copy, the profiles it names, its results), then under every schedule each of them ends as it would on its own, with the same outcome and the same files, none waits for another, and the order in which they took their steps does not matter.","every list of jobs, every disk, every arithmetic, every buffering of writes and every interleaving of the steps","The number of interleavings is unbounded and a test sees the ones the scheduler happens to choose.",["pyflowgo/run_flowgo.py: RunFlowgo.run", "pyflowgo/run_flowgo_effusion_rate_array.py", "pyflowgo/flowgo_logger.py: write_values_to_file", "pyflowgo/flowgo_model_factory.py: FlowgoModelFactory", "pyflowgo/flowgo_heat_budget.py: read_initial_condition_from_json_file"])
p("C108","Two sweeps must not share a working copy","Two sweeps of one template into one results folder at the same time, one for rate r1 and one for rate r2, share the working copy of the template. There is always a schedule under which both end normally and report their own result file, but the result for r1 does not exist; and there is one under which both end normally and the file named after r1 holds the table computed for r2: a run takes the rate for the name of its result from its first look at the configuration and the rate it computes with from later ones.","every template, every two integer rates, every disk and platform on which the run for r2 writes a result, every buffering; existence of the two schedules","The schedules are rare; no test can show that the hazard exists for every template and every pair of rates.",["pyflowgo/run_flowgo_effusion_rate_array.py", "pyflowgo/run_flowgo.py: RunFlowgo.run", "pyflowgo/flowgo_integrator.py: read_initial_condition_from_json_file"])
p("C109","Interruption at any moment, and starting again","A run that is killed after any number of file steps has changed no file but its result file, and that one only if the complete run writes it; then it holds a beginning of the text the complete run writes. A sweep that is killed has the complete results of the rates before some rate, a beginning of the result for that rate (or what was there before), untouched results after it, and as working copy a beginning of one of its configurations. If the files a job may write are none of those it reads (for a sweep: neither the template nor a profile), it can be killed and started again as often as one likes, at any moments: when it is finally left alone it ends exactly as it would have the first time, and leaves the same files.","every configuration, disk, arithmetic and buffering; every moment of interruption, every number of attempts","Crash points are as many as file operations and buffer flushes, and sequences of crashes are unbounded.",["pyflowgo/run_flowgo.py: RunFlowgo.run", "pyflowgo/run_flowgo_effusion_rate_array.py", "pyflowgo/flowgo_logger.py: write_values_to_file"])
p("C110","The same run in several processes at once","Several jobs (runs and sweeps) are started on one disk, no file one of them may write is read by another, and two of them may write the same file only if they are the same job. Then under every schedule every process that has ended has the outcome it has on its own, every process ends after a bounded number of its own steps, and when all have ended every file a job may write is as that job leaves it on its own, whatever the interleaving of the writes into a common result file; in particular a run started n times at once leaves the disk as after one run.","every list of jobs, configuration, disk, arithmetic, buffering and every schedule","Interleavings are unboundedly many, and what has to be compared is the final content of a file truncated and rewritten by several processes.",["pyflowgo/run_flowgo.py: RunFlowgo.run", "pyflowgo/flowgo_logger.py: write_values_to_file", "pyflowgo/run_flowgo_effusion_rate_array.py"])
p("C111","A configuration saved while a run or sweep is reading it","While a run goes on, another program (editor, vent helper) saves a new configuration into the file the run reads. Under every schedule a run that has ended has ended with a ValueError and changed nothing else, or with the outcome and files of a run for which the file is replaced in one go between two of its file operations (so a run can mix entries of the old and the new configuration, but never sees a cut one as if it were whole). A sweep opens its template once: it ends with a ValueError and changes nothing else, or exactly as on the old template, or exactly as on the new one. The ValueError does occur, for whatever old and new text. The saved text is never lost.","every old content of the file, every new JSON object, disk, arithmetic, buffering and every schedule","The windows in which the file is empty or cut depend on the scheduler and on buffering; a test sees a few interleavings.",["pyflowgo/run_flowgo.py: RunFlowgo.run", "pyflowgo/flowgo_model_factory.py", "pyflowgo/run_flowgo_effusion_rate_array.py", "edit_json.py"])
p("C112","Numpy scalars do not change a run that is free of exceptions","init_effusion_rate takes the depth from np.arange, so in a run the depth, and every number computed from it, is a numpy scalar, while the configuration, the slope file and the constants are Python floats. A user reads the formulas as formulas on floats. Whenever the run computed on Python floats ends without an exception, the run of the program, whichever of its numbers are numpy scalars, ends too, with the same files, the same table, cell by cell, and the same final state. The two can only differ where the computation on Python floats raises an exception; a run that does not end on one kind of number does not end on the other.","every configuration, disk, history of the process, depth grid, rounding function and every choice of which numbers are numpy scalars","a test runs one configuration on one kind of number; which numbers are numpy scalars depends on the branch taken at start and on every formula in between",["pyflowgo/flowgo_integrator.py:FlowGoIntegrator.init_effusion_rate", "pyflowgo/flowgo_integrator.py:FlowGoIntegrator.single_step", "pyflowgo/run_flowgo.py:RunFlowgo.run", "pyflowgo/flowgo_terrain_condition.py"])
p("C113","A crystallization rate of zero ends the run normally, with infinities and nan in the result","A division by zero raises ZeroDivisionError exactly when both operands are Python floats; as soon as one is a numpy scalar the quotient is inf or nan and the program goes on. Hence, in a run whose depth was searched from a given effusion rate, a step that reaches the temperature update with a crystallization rate of +0 does not fail, unlike the same step on Python floats: it writes dtemp_dx = -inf and dphi_dx = nan, the lava gets the temperature -inf and the crystal fraction nan, and the run ends normally at this step. With crystallization 'melts' (whose table the factory never loads, C53) the rate is -0.0, so the temperature becomes +inf instead. The velocity and the strain rate that a velocity computation returns are never nan (the iteration fails with RuntimeError instead).","every pair of operands; every integrator, state and lava for which everything but the gradient can be computed","tests call single_step with Python floats, where the exception is raised",["pyflowgo/flowgo_integrator.py:FlowGoIntegrator.single_step", "pyflowgo/flowgo_integrator.py:FlowGoIntegrator.init_effusion_rate", "pyflowgo/flowgo_crystallization_rate_model_melts.py", "pyflowgo/flowgo_material_lava.py:FlowGoMaterialLava.compute_mean_velocity"])
p("C114","Results and working copies that cannot be written","Opening a file for writing may fail (missing folder, no permission). RunFlowgo.run and run_flowgo_effusion_rate_array neither create folders nor catch the error. A run whose result file cannot be opened computes the whole flow and then fails, leaving every file as it was; every other run is unaffected. A sweep whose working copy cannot be opened fails before its first run, leaving every file as it was. A sweep whose working copy can be opened but the result of some rate cannot fails at the end of the run for that rate, leaving the results of the earlier rates and the working copy for that rate, and tries no later rate. In general a job fails at the first moment it is about to write a file that cannot be opened and leaves what an interruption at that moment leaves; if all its files can be opened it does what it does anyway. A result lies in the results folder itself exactly when neither the name of the lava nor the text of the rate contains '/'; otherwise it belongs to a sub-folder nobody creates.","every set of files that can be opened, every configuration text, every disk, every buffering, every sweep and every position of the first unwritable result in it","tests write into an existing temporary folder; the set of writable files and the position of the failure in a sweep are unbounded",["pyflowgo/run_flowgo.py:RunFlowgo.run", "pyflowgo/run_flowgo_effusion_rate_array.py:run_flowgo_effusion_rate_array", "pyflowgo/flowgo_logger.py:FlowGoLogger.write_values_to_file"])
p("C115","Which exception a bad configuration raises","FlowgoModelFactory raises, for every configuration, exactly the first exception of one explicit list of requirements (the names of the models, then crystallization, air, vesicles, melt, relative viscosity, bubbles, yield strength, lava, crust cover, crust temperature, and last the flux switches followed by the parameters of the fluxes that are on), and builds the models exactly when the list reports nothing: a missing entry is a KeyError where it is subscripted and a ValueError where it is tested with `in`, an unknown model name or an inadmissible flux switch a NameError, an unreadable text a ValueError, a number taken from null, a list or an object a TypeError. A run on a bad configuration ends with the first exception of the list for the run and the terrain, then (after the slope profile has been opened) of the list for the models and the starting point, and leaves files and logger untouched; a run that is refused before the flow starts is refused for one of these reasons, for the slope profile, or because the state at the vent cannot be computed.","every JSON value whatsoever as a configuration (sections missing, of the wrong type, entries misspelt, several mistakes at once), every environment and every state of the process","tests try one mistake at a time; which of several mistakes is reported, and that no other exception occurs, is a statement about all configurations",["pyflowgo/flowgo_model_factory.py:FlowgoModelFactory", "pyflowgo/run_flowgo.py:RunFlowgo.run", "pyflowgo/flowgo_terrain_condition.py:read_initial_condition_from_json_file"])
p("C116","A flow does not see the terrain ahead of it","A run uses the slope profile only at the positions the lava comes to. So the result of a completed run depends on the slope file only up to one step beyond its last row: with any other file that begins with the same downhill samples up to there (plus, with smoothing, half the smoothing window of further samples) the run ends in the same way with the same rows and the same result file, whatever latitudes, longitudes and elevations the samples carry and whatever terrain follows. The profile enters only as a function of the distance: two files with the same interpolated slopes give the same outcome in every case (completion, exception, no end); in particular samples of 0.1 degree or less may be added or removed anywhere, and without smoothing so may samples that lie on the line between their neighbours.","every configuration, every pair of slope files related as described, every position reached, every number of steps; the first part for every arithmetic (also floating point), the rest for real arithmetic","a test compares two files; that no further sample of any other file matters is a non-interference statement about all continuations",["pyflowgo/flowgo_terrain_condition.py:read_slope_from_file", "pyflowgo/flowgo_terrain_condition.py:get_channel_slope", "pyflowgo/flowgo_terrain_condition.py:running_mean", "pyflowgo/flowgo_integrator.py:single_step", "pyflowgo/run_flowgo.py:RunFlowgo.run"])
p("C117","A physically sensible configuration runs to the end without an exception","If a configuration can be loaded, its parameters make physical sense (positive step, width, depth, density, latent heat, crystallisation rate and viscosity parameters, fractions between 0 and 1, temperatures above 0 K and above the air's, a cover that does not grow with the velocity), its lava is above the solidus and below the packing limit at the vent and the vent is not on level ground, then the depth search, every step and the whole run raise no exception, for any number of steps, heat fluxes, slope profile, effusion rate and strain-rate dependent rheology; the run ends within the bound of C05 and writes its result file as soon as one step was made. The only exception possible is a step that lands exactly on the packing limit of the relative-viscosity law, where the check accepts the state and the viscosity divides by zero; the Einstein-Roscoe and the Costa laws have no such point. In particular every configuration with the models of the shipped template and physically sensible numbers, and the template's own numbers with any effusion rate and any slope profile, run to the end.","every configuration file and slope file as described, every state reached, every number of steps, every combination of the heat fluxes; real arithmetic","absence of exceptions is a statement about every division, power and logarithm on every state of every run; a test exercises one trajectory",["pyflowgo/run_flowgo.py:RunFlowgo.run", "pyflowgo/flowgo_integrator.py:single_step", "pyflowgo/flowgo_integrator.py:init_effusion_rate", "pyflowgo/flowgo_material_lava.py:compute_mean_velocity", "pyflowgo/flowgo_heat_budget.py:compute_heat_budget", "resource/template.json"])
p("C118","A flow that loses more heat is never hotter, never less crystallised and never longer","Take two completed runs from the same vent that differ only in that the second has further heat fluxes switched on, none of which warms the lava (rain, the Snyder surface flux, viscous heating, conduction into colder ground, radiation). With a rheology that does not use the strain rate, a constant crystallisation rate and a step that is small for the flow equations, wherever both result tables show a core temperature the second is not hotter, and wherever both show a crystal fraction the second is not smaller. If the first table shows no heat budget that is zero or negative (at such a row the program stops the flow) and the viscosity model tests for packing, the second flow does not run farther. Switching on viscous heating is such a change, so it shortens flows.","all configurations of the kind named, all lists of extra fluxes in any order, all terrains, all vent states, all lengths of the runs","a comparison of two whole runs row by row over every terrain, rheology and list of fluxes; a test compares one pair of runs",["pyflowgo/flowgo_integrator.py:FlowGoIntegrator.single_step", "pyflowgo/flowgo_integrator.py:FlowGoIntegrator._compute_heat_budget", "pyflowgo/run_flowgo.py:RunFlowgo.run"])
p("C119","Every complete row of the result of a sensible run shows physically possible numbers","Take a configuration with physically sensible parameters whose lava can flow at the vent. Whenever run_flowgo returns, every complete row of the result shows: a position at or below the vent, a positive channel width, the (positive) channel depth, a crystal fraction that is not negative and not below the one at the vent, a core temperature between the solidus and the eruption temperature, a positive strain rate, a vesicle fraction in [0,1), positive viscosity, density at most the dense-rock density, positive velocity, a crust not colder than the air, a cover fraction in [0,1], positive dphi_dx, dphi_dtemp and dtemp_dt, negative dtemp_dx, positive heat budget and effusion rate, a slope that is not level, a yield strength that is not negative and, below the vent, smaller than the basal stress. If the lava moves and loses heat at the vent, the first row is there.","all configurations with sensible parameters, all slope files, effusion rates, step sizes, both conservation modes, all rows of the result","an invariant of every row of every run over all sensible configurations; a test looks at the rows of one",["pyflowgo/flowgo_integrator.py:FlowGoIntegrator.single_step", "pyflowgo/flowgo_integrator.py:FlowGoIntegrator.init_effusion_rate", "pyflowgo/run_flowgo.py:RunFlowgo.run", "resource/template.json"])
p("C120","Runs in the threads of one process: what they share and what they do not","Several threads of one process each execute RunFlowgo().run(config, folder), switching between the constructor, the preparation, single steps and the writing of the file. For every schedule: a thread's own state after k of its steps is the one it would have alone, and it raises in preparation or in a step exactly what it would raise alone; but all write into one log. Every row anyone has written since the last constructor of anyone is in the file of every run that ends, and no others; a constructor executed while another run is at its end makes that run return normally without any file; two runs that succeed alone can both raise ValueError, or both return normally with the rows of both in each file. If the others only prepare or save while a run is under way, or if each run ends before the next is constructed, or if all threads run the same configuration and all runners are constructed first, every run ends and writes exactly as alone.","all numbers of threads, all configurations, folders and all schedules of their steps","a statement about every interleaving; a test executes one, and the harmful ones are rare",["pyflowgo/flowgo_logger.py:Singleton", "pyflowgo/flowgo_logger.py:FlowGoLogger", "pyflowgo/run_flowgo.py:RunFlowgo.__init__", "pyflowgo/run_flowgo.py:RunFlowgo.run", "pyflowgo/flowgo_integrator.py:FlowGoIntegrator.single_step"])
p("C121","A flow that is driven harder, or supplied at a larger rate, is nowhere colder, nowhere slower and not shorter","Take two completed runs of the same lava from the same vent state, one in a channel that is deeper, or on steeper ground, or under stronger gravity, or (for configuration files) supplied at a larger effusion rate. For a set-up with sensible parameters whose rheology does not use the strain rate, with a constant crystallisation rate, a crust temperature that depends on the place only, and the fluxes rain, conduction, radiation and forced convection, and a step that is small (dx times the heat taken per square metre and kelvin is at most velocity times depth times density times latent heat times crystallisation rate, at every row of the table): wherever both result tables show a number, the run driven harder shows a core temperature that is not lower, a crystal fraction that is not higher and a mean velocity that is not lower; and if it loses heat at every row, it runs at least as far, with a complete row wherever the other has one. For configuration files that differ in the effusion rate the larger rate also shows a channel that is not shallower.","all such set-ups, slope profiles, pairs of channels or effusion rates, with and without mass conservation, and run lengths","a comparison of two whole trajectories for every pair of set-ups; a test compares one pair",["pyflowgo/flowgo_integrator.py:FlowGoIntegrator.single_step", "pyflowgo/flowgo_integrator.py:FlowGoIntegrator.init_effusion_rate", "pyflowgo/flowgo_material_lava.py:FlowGoMaterialLava.compute_mean_velocity", "pyflowgo/flowgo_flux_radiation_heat.py:FlowGoFluxRadiationHeat.compute_flux", "pyflowgo/flowgo_flux_forced_convection_heat.py:FlowGoFluxForcedConvectionHeat.compute_flux", "pyflowgo/flowgo_flux_conduction_heat.py:FlowGoFluxConductionHeat.compute_flux", "pyflowgo/run_flowgo.py:RunFlowgo.run"])
p("C122","The same lava in harsher surroundings is nowhere hotter, nowhere faster and does not run farther","Take two completed runs of the same lava in the same channel that differ only in the surroundings: the second has colder air, more wind, more rain, a colder or nearer base, a larger emissivity, a hotter or less extended crust, or further heat losses switched on. For set-ups with sensible parameters whose rheology does not use the strain rate, with a constant crystallisation rate, a crust temperature that depends on the place only, and the fluxes rain, conduction, radiation and forced convection, and a step that is small for the milder run (dx times the heat taken per square metre and kelvin is at most velocity times depth times density times latent heat times crystallisation rate, at every row of its table): wherever both result tables show a number, the second shows a core temperature that is not higher, a crystal fraction that is not lower and a mean velocity that is not higher; and if the milder flow loses heat at every row, the second has a complete row only where the milder one has one.","all such pairs of set-ups or configuration files, slope profiles, effusion rates, with and without mass conservation, and run lengths","a comparison of two whole trajectories for every pair of set-ups; a test compares one pair",["pyflowgo/flowgo_integrator.py:FlowGoIntegrator.single_step", "pyflowgo/flowgo_flux_radiation_heat.py:FlowGoFluxRadiationHeat.compute_flux", "pyflowgo/flowgo_flux_forced_convection_heat.py:FlowGoFluxForcedConvectionHeat.compute_flux", "pyflowgo/flowgo_flux_conduction_heat.py:FlowGoFluxConductionHeat.compute_flux", "pyflowgo/flowgo_flux_heat_loss_rain.py:FlowGoFluxHeatLossRain.compute_flux", "pyflowgo/flowgo_model_factory.py:FlowgoModelFactory", "pyflowgo/run_flowgo.py:RunFlowgo.run"])
p("C123","In a sweep of effusion rates the run-outs in the run-out table never decrease","A sweep over positive rates with a positive step, from a template with sensible parameters (constant crystallisation rate, crust temperature that depends on the place only, fluxes rain, conduction, radiation, forced convection, rheology without strain rate), that ends normally and whose runs all flowed (they show a depth at the vent at which the yield strength is below the basal stress, a heat budget that is positive at every row, and a step that was small for the run). If the slope file given for the post-processing has ascending distances and rounding to the metre is monotone, then the run-out table has one line per rate and from line to line neither the run-out nor the depth decreases. The same holds for two single runs of one configuration with two rates, and it holds from text to text: for the configuration and the profile as texts on a disk, the points of the figure of run-outs and the lines of the run-out table found on the disk afterwards never decrease, whatever monotone rounding the decimal texts of the numbers bring.","all such templates, first and last rates, steps, slope profiles, slope files for the post-processing, and numbers of runs","it compares all the runs of a sweep with each other, through the whole pipeline from the template to the run-out table; a test sees one sweep",["pyflowgo/run_flowgo_effusion_rate_array.py:run_flowgo_effusion_rate_array", "pyflowgo/run_outs.py:get_run_outs", "pyflowgo/flowgo_integrator.py:FlowGoIntegrator.single_step", "pyflowgo/flowgo_integrator.py:FlowGoIntegrator.init_effusion_rate", "pyflowgo/run_flowgo.py:RunFlowgo.run"])
p("C124","A row of the results is cut short exactly when the lava no longer loses heat, and then the result cannot be post-processed","In the results of a completed run with sensible parameters every row shows a heat budget. The complete rows are the first ones, one step apart from the vent on; at most one row follows them. A row is complete if and only if its heat budget is positive. get_run_outs can compute a line from the result file if and only if there are at least two rows, the last row shows a positive heat budget, and the slope file has a line whose distance is at most twice the position of the vent plus the number of rows times the step.","all set-ups with sensible parameters, models, slope profiles, effusion rates and run lengths, and all slope files given for the post-processing","it says when a defect shows in every possible result table; a test shows single tables",["pyflowgo/flowgo_integrator.py:FlowGoIntegrator.single_step", "pyflowgo/flowgo_heat_budget.py:FlowGoHeatBudget", "pyflowgo/run_outs.py:get_run_outs", "pyflowgo/flowgo_logger.py:FlowGoLogger.write_values_to_file"])
p("C125","A small change of the vent state or of the set-up makes a small change of the result table","Take two completed runs with the same step size from the same position, of lavas whose rheology does not use the strain rate. Let their vent temperatures and vent crystal fractions differ by at most e, and let the right-hand sides of their flow equations, on the range of what the two tables show, differ by at most K times the difference of temperature and crystal fraction plus delta. Then wherever both tables show a core temperature, or both a crystal fraction, the two numbers differ by at most e exp(K x) + (delta/K)(exp(K x) - 1), where x is the distance from the vent; the bound does not depend on the step size or the number of rows. For lava cooled by rain the constants exist: temperatures and crystal fractions change by at most a constant times the change of the rain intensity, for every number of steps.","all such pairs of set-ups, vent states, step sizes and run lengths, with and without mass conservation; in the rain case all rain intensities up to a bound, channel lengths and numbers of steps","continuity is a statement about all nearby inputs at once and about every row of tables of any length; a test perturbs one input",["pyflowgo/flowgo_integrator.py:FlowGoIntegrator.single_step", "pyflowgo/flowgo_heat_budget.py:FlowGoHeatBudget", "pyflowgo/run_flowgo.py:RunFlowgo.run"])
p("C126","The easier the lava flows at the vent, the shallower the channel","Take two configurations with the same lava (models that do not read the strain rate, sensible parameters) and effusion rates other than zero, whose runs end normally and show a channel depth at the vent. If at the second vent, at the same place, the lava is hotter and less crystallised, the channel wider, gravity stronger, the ground steeper and the effusion rate smaller (each of them or equal), and the first lava moves in the channel that was found for it (yield strength below basal stress), then the depth shown by the second is not larger. Without the last condition this is false: there are two sensible vents that differ in gravity only where the one with twice the gravity gets the deeper channel, because the velocity formula gives stuck lava a velocity that falls as the stress rises.","all pairs of configurations, grids of ascending positive depths, rates, vent states, widths, gravities and slopes; all lavas without strain-rate laws","it compares the outcome of two searches over fifty thousand depths for every pair of vents; a test compares two vents",["pyflowgo/flowgo_integrator.py:FlowGoIntegrator.init_effusion_rate", "pyflowgo/flowgo_material_lava.py:FlowGoMaterialLava.compute_mean_velocity", "pyflowgo/flowgo_yield_strength_model_basic.py:FlowGoYieldStrengthModelBasic.compute_basal_shear_stress"])
p("C127","A flow can be taken up again at any row of its table","Take a run that ends normally, without mass conservation, with positive step, a lava without strain-rate laws, a crust that does not read the clock, and melt and yield models that do not read the eruption temperature; and any position x of its result table. Configure a second eruption whose vent is at x, with the core temperature, crystal fraction, channel width and channel depth that the table shows there and the effusion rate left open (0); with the crystallisation model basic also with the crystals still to grow in proportion to the temperature left. All other entries stay the same. Then the second run ends normally too, and its result table is, row by row and column by column, the rest of the first table from x on: the flow has no memory but its temperature, crystals, width and depth.","all configurations of these models, all terrains, all parameter values, all depth grids, all rows of the table","it equates the rest of every run with another run, for every row; a test restarts one flow at one row",["pyflowgo/flowgo_integrator.py:FlowGoIntegrator.single_step", "pyflowgo/run_flowgo.py:RunFlowgo.run", "pyflowgo/flowgo_crystallization_rate_model_basic.py:FlowGoCrystallizationRateModelBasic.compute_crystallization_rate", "pyflowgo/flowgo_logger.py:FlowGoLogger.add_variable"])
p("C128","Fresher lava keeps its lead","Take two configurations that differ only in the lava that leaves the vent: the first erupts not colder than the second, and the second has at least the crystals the first would have after cooling as far (at the constant crystallisation rate); in particular the same temperature and fewer crystals. Channel and place are the same and the effusion rate is left open (0). With sensible parameters and everyday models (no strain-rate laws, steady crust; rain, conduction, radiation, forced convection), if both lavas can flow at the vent, the second moves there and the step is small for the first run, then at every position shown by both tables the first flow is not colder, not more crystallised and not slower; and if it always loses heat, it runs at least as far.","all configurations of these models, all terrains, all parameter values, all pairs of lavas so ordered, all rows of the tables","it orders two whole runs row by row for every pair of lavas; a test compares two runs",["pyflowgo/flowgo_integrator.py:FlowGoIntegrator.single_step", "pyflowgo/flowgo_integrator.py:FlowGoIntegrator.initialize_state", "pyflowgo/run_flowgo.py:RunFlowgo.run", "pyflowgo/flowgo_material_lava.py:FlowGoMaterialLava.compute_mean_velocity"])
p("C129","The command-line script from text to text","On every disk, `python main_flowgo.py file` and `RunFlowgo().run(file, folder)` in a new process go on or end together. A configuration file that is missing or no JSON text makes both raise the same exception and changes nothing. If the text is JSON and its mass_conservation means the same to both, they raise the same exception or none, and write nothing or one file each with the same text, the runner to <folder>/results_flowgo_<lava_name>_<effusion_rate_init>m3s.csv, the script to ./results_flowgo/results_main_flowgo_<lava_name>_<effusion_rate_init>m3s.csv. In one folder the two names never coincide, whatever the lavas and rates are called. Run one after the other, the second adds a file with the text of the first.","all disks of texts, all number formats, all configurations, all folders, all lengths of the run","equality of the whole text for every configuration and disk; a test runs both on one configuration",["main_flowgo.py:__main__", "pyflowgo/run_flowgo.py:RunFlowgo.run", "pyflowgo/flowgo_logger.py:FlowGoLogger.write_values_to_file"])
p("C130","The velocity in rounded arithmetic, near the yield point and away from it","In any floating-point arithmetic of relative accuracy u the velocity that compute_mean_velocity returns differs from the Bingham velocity of the yield strength tho_0, basal stress tho_b and viscosity it used by at most 12 u times the Newtonian velocity depth*tho_b/(3*viscosity). It is positive whenever tho_0 is below tho_b by more than sqrt(8u) of tho_b (3e-8 for doubles); so after a step that did not end the run, the next one does not end it for lack of velocity unless tho_0 and tho_b agree to that accuracy. The exception is real: in doubles there is a flow that no stop criterion ends (tho_0 < tho_b, core above the solidus, channel going on) whose next step computes the velocity zero, ends the run and writes no row.","all rounding functions of relative accuracy at most 1/1000, all lavas, terrains and states; all accepted steps","a bound on an error for every input of a formula with cancellation; a test sees a few roundings and does not meet the cancellation",["pyflowgo/flowgo_material_lava.py:FlowGoMaterialLava.compute_mean_velocity", "pyflowgo/flowgo_integrator.py:FlowGoIntegrator.single_step", "pyflowgo/flowgo_yield_strength_model_basic.py:FlowGoYieldStrengthModelBasic.yield_strength_notcompatible"])
p("C131","The table of a run in rounded arithmetic and the table of the exact run","Run the same number of steps in rounded arithmetic (relative accuracy u, absolute eta) and in exact arithmetic, with the same step size dx from the same vent position, at positions the number format represents, with a lava that does not use the strain rate. Let the exact flow equations be K-Lipschitz in a region that holds the states of both runs, let the vent states differ by at most e, the gradients dtemp_dx and dphi_dx in the rounded rows agree with the exact equations up to delta, and B bound the numbers added up. Then both final tables have rows at the same positions, and the core temperatures and crystal fractions shown there differ by at most e exp(Kx) + (delta + (4uB + 3 eta)/dx)/K (exp(Kx) - 1) at the distance x; rounding errors do not pile up faster than that. For a flow of a thousand steps in 53-bit arithmetic the two tables agree to 1e-9.","all roundings of relative accuracy at most 1/1000, all integrators, all pairs of accepted runs of any number of steps, all rows of the final tables","a bound on the accumulated rounding error of runs of every length; exact arithmetic is not available to a test",["pyflowgo/flowgo_integrator.py:FlowGoIntegrator.single_step", "pyflowgo/flowgo_logger.py:FlowGoLogger.add_variable", "pyflowgo/run_flowgo.py:RunFlowgo.run"])
p("C132","What a table computed in rounded arithmetic says about the flow equations","Take a run of k steps in rounded arithmetic (relative accuracy u, absolute eta) at positions the number format represents, and a solution of the exact flow equations that starts within e of its vent state. In a region where the equations are K-Lipschitz and the slopes of the solution vary by at most M per metre, with gradients dtemp_dx and dphi_dx in the rows accurate to delta and B bounding the numbers added up, every row of the final table is within e exp(Kx) + (M dx/2 + delta + (4uB + 3 eta)/dx)/K (exp(Kx) - 1) of the solution at its position, x metres from the vent: the error of the step size falls and the error of rounding rises as the step gets finer, and the two never do more than add up. The flow equations of a concrete flow have a solution, and the table of its thousand steps in 53-bit arithmetic shows it to 1e-9.","all roundings of relative accuracy at most 1/1000, all integrators, all accepted runs of any number of steps, all solutions, all rows of the final table","a bound on discretisation and rounding errors together for runs of every length; a test has neither the exact solution nor every run",["pyflowgo/flowgo_integrator.py:FlowGoIntegrator.single_step", "pyflowgo/flowgo_logger.py:FlowGoLogger.add_variable", "pyflowgo/run_flowgo.py:RunFlowgo.run"])
p("C133","The three Phan-Thien-Pham viscosity models are ordered, and agree when a phase is missing","For lava with crystals or bubbles that fill less than the whole volume, the relative-viscosity models ptp1, ptp2 and ptp3 all give a number, never below 1; ptp3 never gives more than ptp2, nor ptp2 more than ptp1. Two of them agree exactly when there are no crystals or no bubbles: with bubbles only all three give 1/(1-v), with crystals only all three give (1-phi)^(-5/2). Hence in the same channel the lava is slowest with ptp1 and fastest with ptp3 (strictly, if it has both phases and does not just stand), and for a given effusion rate the channel found with ptp3 is not deeper than that with ptp2, nor that than the one with ptp1.","every vesicle model, every state with crystal and vesicle fractions that are not negative, not both zero and add up to less than one; every lava with valid melt parameters, every channel with positive depth and basal stress; every vent and effusion rate other than zero","an inequality between three transcendental functions on a two-dimensional region (it rests on the strict concavity of the logarithm) that becomes an equality on the boundary; sampling sees it at the samples only and cannot tell equality from closeness",["pyflowgo/flowgo_relative_viscosity_model_ptp1.py:FlowGoRelativeViscosityModelPhanThienPham1.compute_relative_viscosity", "pyflowgo/flowgo_relative_viscosity_model_ptp2.py:FlowGoRelativeViscosityModelPhanThienPham2.compute_relative_viscosity", "pyflowgo/flowgo_relative_viscosity_model_ptp3.py:FlowGoRelativeViscosityModelPhanThienPham3.compute_relative_viscosity", "pyflowgo/flowgo_material_lava.py:FlowGoMaterialLava.compute_mean_velocity", "pyflowgo/flowgo_integrator.py:FlowGoIntegrator.init_effusion_rate"])
p("C134","Thinner and weaker lava in the same channel is nowhere colder, nowhere slower, and does not stop earlier","Take two sensible set-ups that differ in the rheological models of the lava only (melt, crystals, bubbles, yield strength), without strain-rate laws, with a constant crystallisation rate, a steady crust and the heat losses rain, conduction, radiation and forced convection, and let the first lava be nowhere thicker and have nowhere a higher yield strength than the second. Run both from the same vent in the same channel (a configured depth, effusion rate zero). If the second lava can flow at the vent and the step is small by the velocities in the first table, then wherever both tables show a number the first shows a core temperature that is not lower, a crystal fraction that is not higher and a velocity that is not lower; and if the first flow always loses heat it runs at least as far and has a complete row wherever the second has one. Lavas that are not thicker: a basic melt with a smaller viscosity, a Shaw melt with a smaller slope, a VFT melt with smaller A and B; ptp3 against ptp2 against ptp1; Maron-Pierce with a larger packing; Krieger-Dougherty with a smaller Einstein coefficient; Krieger-Dougherty against Maron-Pierce where coefficient times packing is at most 2, and the other way round where it is at least 2 (the template: 2.096); deformable bubbles against none against rigid ones; the yield strengths of Ryerson or Dragoni alone against their sum, and Dragoni's with a lower reference temperature.","every pair of sensible set-ups as described, every channel, every vent, every number of steps and every step size small for the thinner run; all positions of both tables","it compares two whole runs of any length: the faster lava also spreads narrower and keeps less crust, so that the heat loss per metre could have gone either way; the claim needs an induction along the flow over every pair of lavas and every channel",["pyflowgo/flowgo_integrator.py:FlowGoIntegrator.single_step", "pyflowgo/flowgo_material_lava.py:FlowGoMaterialLava.compute_mean_velocity", "pyflowgo/flowgo_material_lava.py:FlowGoMaterialLava.computes_bulk_viscosity", "pyflowgo/run_flowgo.py:RunFlowgo.run"])
p("C135","On steeper ground the same lava is nowhere colder, nowhere slower, and does not stop earlier","Take one sensible set-up without strain-rate laws, with a constant crystallisation rate, a steady crust and the heat losses rain, conduction, radiation and forced convection, and two grounds for it with the same channel depth (a configured depth, effusion rate zero): between the vent and the end of the channel, wherever the second ground falls away, gravity times the sine of the slope is on the first not smaller, and the channel of the first does not end earlier. If the lava can flow at the vent of the second and the step is small by the velocities in the first table, then wherever both tables show a number the first shows a core temperature that is not lower, a crystal fraction that is not higher and a velocity that is not lower; and if the first flow always loses heat it runs at least as far, and its table is complete wherever the other is. Two slope files with usable samples at the same distances are ordered in this way if the slopes in degrees are (none above 90), smoothed or not, as long as the samples cover the way from the vent to the end of the channel; and so are two gravities.","all such set-ups and pairs of grounds, all vent states, all runs of any length, all slope files, all smoothing widths","a statement about two whole runs and every row of both tables, for all grounds: a test compares a few rows of two runs",["pyflowgo/flowgo_integrator.py:FlowGoIntegrator.single_step", "pyflowgo/flowgo_material_lava.py:FlowGoMaterialLava.compute_mean_velocity", "pyflowgo/flowgo_material_lava.py:FlowGoMaterialLava.computes_bulk_viscosity", "pyflowgo/run_flowgo.py:RunFlowgo.run", "pyflowgo/flowgo_terrain_condition.py:FlowGoTerrainCondition.read_slope_from_file"])
p("C136","Denser lava, and lava that gives off more latent heat, is nowhere colder, nowhere slower, and does not stop earlier","Take a sensible set-up without strain-rate laws, with a constant crystallisation rate, a steady crust and the heat losses rain, conduction, radiation and forced convection, and the same set-up with a dense-rock density and a latent heat of crystallisation that are positive and not larger. Run both from the same vent in the same channel (a configured depth, effusion rate zero). If the lighter lava can flow at the vent and the step is small by the velocities and densities in the first table, then wherever both tables show a number the first shows a core temperature that is not lower, a crystal fraction that is not higher and a velocity that is not lower; and if the first flow always loses heat it runs at least as far, and its table is complete wherever the other is. With mass conservation the same holds if the mass rates stand for the volume rates times densities in the proportion of the dense-rock densities.","all such set-ups, all smaller densities and latent heats, all vent states, all runs of any length","it compares two whole runs of any length: density enters the pull of gravity, the heat capacity of the flow and (through the velocity) the width and the crust, so the sign of the effect needs an induction along the flow for every set-up",["pyflowgo/flowgo_integrator.py:FlowGoIntegrator.single_step", "pyflowgo/flowgo_material_lava.py:FlowGoMaterialLava.compute_mean_velocity", "pyflowgo/flowgo_material_lava.py:FlowGoMaterialLava.computes_bulk_viscosity", "pyflowgo/run_flowgo.py:RunFlowgo.run", "pyflowgo/flowgo_material_lava.py:FlowGoMaterialLava.get_bulk_density"])
p("C137","The order of the sections and entries of a configuration file does not matter","Take a configuration and the same configuration with its sections in another order and the entries of each section in another order, no key occurring twice. Both prepare the same run or are refused with the same exception; run from the same state they have the same outcome, leave the same log and write the same result file under the same name. The same holds for two files whose texts are such configurations with any spacing and line ends. (The four entries outside the sections that a run uses keep their values: the order inside an object given as the name of the lava would show in the name of the result file.)","all configurations (JSON objects), complete or not, and all their rearrangements; all environments, logs and numbers of steps; all texts of such configurations","there are factorially many orders of a configuration with about seventy entries, and the program reads them in many places; that no reader depends on the order has to be shown for every reader and every order, also for the exceptions raised on incomplete files",["pyflowgo/run_flowgo.py:RunFlowgo.run", "pyflowgo/flowgo_model_factory.py:FlowgoModelFactory.__init__", "pyflowgo/flowgo_terrain_condition.py:FlowGoTerrainCondition.read_initial_condition_from_json_file"])
p("C138","In a sweep the result of a rate depends neither on the range and step of the sweep nor on the effusion rate in the template","Take two effusion-rate sweeps that end normally, with any first rate, last rate and step each, of two template files that differ at most in the effusion rate they configure, in the order of their entries and in their spacing, on two disks with the same slope and crust profiles. For every rate the two sweeps have in common, either both leave the same text in the result file of that rate, or neither writes one. (The result files of different rates, the working copy and the profiles must be different files.)","all templates, all pairs of ranges and steps, all common rates, all disks, all lengths of the runs","the runs of a sweep go through the same working copy, the same process-wide log and the same template object one after another; that nothing of the earlier rates reaches a later one has to be shown for every number and order of earlier runs",["pyflowgo/run_flowgo_effusion_rate_array.py:StartFlowgo.run_flowgo_effusion_rate_array", "pyflowgo/run_flowgo.py:RunFlowgo.run"])
p("C139","The name of the lava, the output folder and the name of the configuration file only decide where the result goes","Take two configurations that agree in every entry but lava_name, in files of any names, and run them into any two folders with the same slope and crust profiles. The preparation raises the same exception for both or gives the same run; run() has the same outcome, leaves the same log and the same table, each only under its own name <folder>/results_flowgo_<lava_name>_<effusion_rate_init>m3s.csv, and keeps all other results. On disks whose profiles have the same data lines, both runs write the same text, byte for byte, or both end alike without writing. For two sweeps that end normally (whose templates may differ in the effusion rate too, and whose ranges may differ), a rate that is in both ranges has the same result text in both, or neither writes one for it. (For sweeps, the result files of different rates, the working copy and the profiles must be different files.)","all pairs of configurations that agree but in the name, all file names and folders, all disks, all ranges of the sweeps, all lengths of the runs","the configuration is read a dozen times, by a dozen objects, and the name is used only at the end; that no value of the name (a number, a path, text) reaches the physics has to be shown for every configuration and every length of run",["pyflowgo/run_flowgo.py:RunFlowgo.run", "pyflowgo/run_flowgo.py:RunFlowgo.get_file_name_results", "pyflowgo/run_flowgo_effusion_rate_array.py:StartFlowgo.run_flowgo_effusion_rate_array", "pyflowgo/flowgo_logger.py:FlowGoLogger.write_values_to_file"])
p("C140","What counts is the law, not the class: models with two regimes whose regimes are equal give the run of the model with one","Exchange, in a configuration, the name of one model for that of another which has the same parameters along the whole flow: the crust cover basic for bimodal with alpha_1 = alpha_2 = alpha and crust_cover_fraction_2 = crust_cover_fraction; the crystallization rate basic, bimodal or bimodal_f_temp for another of them with both rates equal (for basic: to crystals_grown / (eruption - solid temperature)); the vesicles constant for bimodal with equal fractions; in exact arithmetic and for a fraction that is not negative also variable, variable_bimodal and poly with zero coefficients. Then run() has the same outcome, raises the same exception if any, leaves the same log and writes the same result file, wherever the critical distance or temperature lies; so for any number of such exchanges. From text to text, two such configuration files on one disk leave the same disk.","all configurations with these entries, all critical distances and temperatures, all sequences of exchanges, all depth grids, all lengths of the runs, every arithmetic (zero coefficients: exact arithmetic)","the classes are wired into viscosity, density, fluxes and integrator by the factory; that no other difference between two classes (a getter, an attribute, an order of reading, a vesicle object kept elsewhere) reaches the result has to be shown for every state a run can pass through",["pyflowgo/flowgo_effective_cover_crust_model_bimodal.py", "pyflowgo/flowgo_effective_cover_crust_model_basic.py", "pyflowgo/flowgo_crystallization_rate_model_basic.py", "pyflowgo/flowgo_crystallization_rate_model_bimodal.py", "pyflowgo/flowgo_crystallization_rate_model_bimodal_f_temp.py", "pyflowgo/flowgo_vesicle_fraction_model_bimodal.py", "pyflowgo/flowgo_vesicle_fraction_model_poly.py", "pyflowgo/flowgo_model_factory.py:FlowgoModelFactory", "pyflowgo/run_flowgo.py:RunFlowgo.run"])
p("C141","The second regime has no effect on a flow that does not get there","Take a run() that completes, whose log rows all lie at least one step before the configured critical_distance (and which starts no further). Give the entries of the second regime - alpha_2, crust_cover_fraction_2, crust_temperature_2 and crystallization_rate_2 - any other numbers: run() again completes, with the same log, row for row, and the same result file. The crystallization model bimodal_f_temp, whose second regime is reached by temperature, is excepted. The same holds for the simulation with model objects built by hand: crust temperature, crust cover and crystallization rate may have any second regime, and any critical distance, beyond the end of the flow.","all configurations (with any names of models but bimodal_f_temp), all numbers for the second regime, all depth grids, all lengths of the runs; exact arithmetic","the models are evaluated several times per step in many places (fluxes, radiance, log, stop test); that none of them looks beyond the present position has to be shown at every state of runs of any length",["pyflowgo/flowgo_effective_cover_crust_model_bimodal.py", "pyflowgo/flowgo_crust_temperature_model_bimodal.py", "pyflowgo/flowgo_crystallization_rate_model_bimodal.py", "pyflowgo/flowgo_integrator.py:FlowGoIntegrator.single_step", "pyflowgo/flowgo_model_factory.py:FlowgoModelFactory", "pyflowgo/run_flowgo.py:RunFlowgo.run"])
with open('/verif/properties.jsonl','w') as f:
    for x in P: f.write(json.dumps(x,ensure_ascii=False)+'\n')
print(len(P))
