{"id": "C01", "title": "Event calendar delivers events in chronological order", "statement": "Starting from any well formed event calendar, any sequence of 'take the next event, then schedule one event' (the only way the simulator uses the calendar) behaves as a stable sorted priority queue: each take returns an event whose time is minimal among all pending ones, the pending events are exactly the old ones minus the taken one plus the scheduled one, and the calendar stays sorted by time.", "quantifier": "all well formed calendars, all finite histories of take/schedule pairs, all event times and types", "why_tests_cant": "a test runs one history of a few events; pointer corruption depends on which slots were freed and re-used before", "anchors": ["reliabilityassessment/monte_carlo/filem.py:filem", "reliabilityassessment/monte_carlo/remove.py:remove"]}
{"id": "C02", "title": "Event calendar storage is never exhausted or corrupted by a run", "statement": "In a simulation run the calendar holds exactly 7 pending events at every loop iteration, they live in 7 pairwise different slots inside the 100-word array, the walk over the links terminates, and no access is out of range, however long the run is.", "quantifier": "all run lengths, all behaviours of the hourly, weekly, quarterly and yearly handlers", "why_tests_cant": "a leak or link corruption shows only after arbitrarily many steps", "anchors": ["reliabilityassessment/monte_carlo/filem.py:filem", "reliabilityassessment/monte_carlo/remove.py:remove", "reliabilityassessment/monte_carlo/initl.py:initl", "reliabilityassessment/monte_carlo/contrl.py:contrl"]}
{"id": "C03", "title": "Event calendar accepts arbitrary interleavings of schedule and remove", "statement": "For every sequence of schedule and remove operations that never removes from an empty calendar and never holds more than 25 events, the calendar behaves as a priority queue (no pending event is lost or overwritten).", "quantifier": "all operation sequences of any length", "why_tests_cant": "the failure needs a particular order: one remove followed by two schedules", "anchors": ["reliabilityassessment/monte_carlo/filem.py:filem", "reliabilityassessment/monte_carlo/remove.py:remove", "reliabilityassessment/monte_carlo/initfl.py:initfl"]}
{"id": "C04", "title": "The constant initial calendar equals the scheduled initial calendar", "statement": "The hard coded initial calendar (initl) is the calendar obtained by scheduling the four quarterly events, the yearly event, the weekly event and the first draw one by one (_initl) on an empty calendar, for both sampling steps (hourly, daily).", "quantifier": "both values of JSTEP and default season ends; and, as a question, all season ends", "why_tests_cant": "the equality must hold word for word, and for which season ends it holds is a statement about all of them", "anchors": ["reliabilityassessment/monte_carlo/initl.py:initl", "reliabilityassessment/monte_carlo/initl.py:_initl", "reliabilityassessment/monte_carlo/initfl.py:initfl"]}
{"id": "C05", "title": "Simulated time never runs backwards and the scheduler never aborts", "statement": "In every run started by the main program the clock is non-decreasing, the pending event is never earlier than the clock, and neither the 'pointer is -1' nor the 'scheduled prior to the current time' error exit is ever taken; the event type dispatched is always 1, 2, 3 or 4.", "quantifier": "all runs of any length, all behaviours of the event handlers", "why_tests_cant": "an ordering error needs a particular tie between handlers and may come after many simulated years", "anchors": ["reliabilityassessment/monte_carlo/contrl.py:contrl", "reliabilityassessment/monte_carlo/events.py:events"]}
{"id": "C06", "title": "Every run terminates", "statement": "Whatever the random draws and the convergence test do, a run with horizon FINISH processes a bounded number of events and then returns; it never processes an event later than FINISH+1.", "quantifier": "all horizons, all convergence outcomes, all handler behaviours", "why_tests_cant": "termination is a statement about all executions", "anchors": ["reliabilityassessment/monte_carlo/contrl.py:contrl"]}
{"id": "C07", "title": "Each simulated year contains exactly 8760 hourly (365 daily) draws before its year-end evaluation", "statement": "The k-th year-end event happens at clock 8760k, is preceded by exactly 8760k hourly draws (365k in daily mode), including the draw of the last hour of the year, and reports itself as year k.", "quantifier": "all k, both sampling modes, all handler behaviours", "why_tests_cant": "off-by-one at year boundaries depends on tie breaking between events of equal time at every k", "anchors": ["reliabilityassessment/monte_carlo/contrl.py:contrl", "reliabilityassessment/monte_carlo/hour.py:hour", "reliabilityassessment/monte_carlo/year.py:year", "reliabilityassessment/monte_carlo/filem.py:filem"]}
{"id": "C08", "title": "Season boundaries of the input govern when seasonal ratings change", "statement": "The simulated seasonal capacity changes happen at the season ends given in the input data (QTR computed from IW1, IW2, IW3).", "quantifier": "all season ends in the input", "why_tests_cant": "tests use the default season ends only", "anchors": ["reliabilityassessment/monte_carlo/initl.py:initl", "reliabilityassessment/monte_carlo/narpMain.py:narpMain", "reliabilityassessment/data_processing/datax.py:datax"]}
{"id": "C09", "title": "In season s the unit ratings of season s are used", "statement": "During the s-th season of every simulated year the ratings used for the draws are column s of the seasonal rating table.", "quantifier": "all rating tables, all seasons, all years", "why_tests_cant": "an index phase error is invisible when all columns are alike, and the state persists across the run", "anchors": ["reliabilityassessment/monte_carlo/quartr.py:quartr", "reliabilityassessment/monte_carlo/narpMain.py:narpMain", "reliabilityassessment/monte_carlo/events.py:events"]}
{"id": "C10", "title": "Weekly planned outages: exactly the listed units are off", "statement": "After the weekly event, a unit is off for maintenance iff it is listed in the planned-outage table row that the event uses, and every unit not listed is on, whatever the previous status.", "quantifier": "all tables, all previous statuses, all units", "why_tests_cant": "must hold for all tables and prior statuses (no unit stuck off from a previous week)", "anchors": ["reliabilityassessment/monte_carlo/week.py:week"]}
{"id": "C11", "title": "Planned outages of week w are applied in week w", "statement": "During hours 168w .. 168w+167 of each simulated year the planned-outage row in effect is row w.", "quantifier": "all weeks of all simulated years", "why_tests_cant": "needs the whole schedule of events, not one call", "anchors": ["reliabilityassessment/monte_carlo/week.py:week", "reliabilityassessment/monte_carlo/hour.py:hour", "reliabilityassessment/monte_carlo/events.py:events"]}
{"id": "C12", "title": "Pseudo random states stay in range and never collapse", "statement": "Every seed state used for drawing unit and line states is an integer in [0, 2^31), each draw multiplies it by 65539 modulo 2^31, and starting from the seeds the program makes, no state ever becomes 0; the variate derived from it is in [0, 1].", "quantifier": "all numbers of units and lines, all numbers of draws", "why_tests_cant": "a generator collapsing after 10^8 draws cannot be seen by tests", "anchors": ["reliabilityassessment/monte_carlo/seeder.py:seeder", "reliabilityassessment/monte_carlo/gstate.py:gstate", "reliabilityassessment/monte_carlo/lstate.py:lstate"]}
{"id": "C13", "title": "The seeding routine gives every unit its own stream, fixed by the seed", "statement": "For every seed handed to the seeding routine the initial state of stream i is the seed times 9649599^(i+1) modulo 2^31, and different seeds (below 2^31) give different states for every stream.", "quantifier": "all seeds, all unit indices", "why_tests_cant": "statement about all seeds; a constant seed passes every regression test", "anchors": ["reliabilityassessment/monte_carlo/narpMain.py:narpMain", "reliabilityassessment/monte_carlo/seeder.py:seeder"]}
{"id": "C14", "title": "Generator state sampling follows the three-state outage model", "statement": "For a variate u the sampled availability is 1 when u < 1-DFOR-FOR, the derated fraction when 1-DFOR-FOR <= u < 1-FOR, and 0 otherwise; available capacity is availability x rating x maintenance status, hence between 0 and the rating, and 0 for a unit under maintenance.", "quantifier": "all probabilities, ratings, statuses, seeds and numbers of units", "why_tests_cant": "ranges over all real inputs and states", "anchors": ["reliabilityassessment/monte_carlo/gstate.py:gstate", "reliabilityassessment/data_processing/datax.py:datax"]}
{"id": "C15", "title": "Line state sampling selects the state by cumulative probability", "statement": "For non-decreasing cumulative probabilities the sampled line state is the unique s in 1..6 whose probability interval contains the variate, larger variates never give smaller states, and every line gets one state.", "quantifier": "all probability tables, all seeds, all numbers of lines", "why_tests_cant": "ranges over all tables", "anchors": ["reliabilityassessment/monte_carlo/lstate.py:lstate", "reliabilityassessment/data_processing/datax.py:datax"]}
{"id": "C16", "title": "Capacity accounting conserves megawatts", "statement": "The capacity controlled by all areas sums to the available capacity of all units, the capacity owned sums likewise when each unit's ownership shares sum to 1, the jointly-owned-unit transfers and the firm interchange sum to zero over the areas.", "quantifier": "all unit sets, control maps, ownership matrices, interchange tables", "why_tests_cant": "conservation must hold for every size and matrix", "anchors": ["reliabilityassessment/monte_carlo/sumcap.py:sumcap", "reliabilityassessment/monte_carlo/findtn.py:findtn"]}
{"id": "C17", "title": "Area load export shifts load between areas without losing any and is undone by the inverse step", "statement": "Converting area loads with the load-sharing step (xporta) and back (xports) returns the original hourly loads, and the pool load at each hour is unchanged.", "quantifier": "all load tables and interchange tables", "why_tests_cant": "round trip must hold for all tables", "anchors": ["reliabilityassessment/data_processing/xporta.py:xporta", "reliabilityassessment/data_processing/xports.py:xports"]}
{"id": "C18", "title": "Daily peaks are true maxima", "statement": "For each area and day the daily peak load is the maximum over the day's 24 hours and the recorded peak hour is the first hour attaining it; the annual peak is the maximum over the days; the vectorised and loop versions agree.", "quantifier": "all load tables, areas and days", "why_tests_cant": "ties and all tables", "anchors": ["reliabilityassessment/data_processing/dpeak.py:dpeak", "reliabilityassessment/data_processing/plhr.py:plhr"]}
{"id": "C19", "title": "Weekly peaks are true maxima over the days of the week", "statement": "Each weekly peak is the maximum of the daily peaks of the days in that week; the last week also covers the 365th day, so every day of the year belongs to exactly one week.", "quantifier": "all daily peak tables", "why_tests_cant": "all tables, boundary day", "anchors": ["reliabilityassessment/data_processing/wpeakf.py:wpeakf"]}
{"id": "C20", "title": "Hourly loads are scaled so that each area's peak is its input peak load", "statement": "After scaling, every area's largest hourly load equals the peak load of the input and the shape (ratios between hours) is preserved, when the raw peak is positive.", "quantifier": "all hourly load tables, all peak loads, all area counts", "why_tests_cant": "all tables; area number parsing depends on the number of areas", "anchors": ["reliabilityassessment/data_processing/xldnew.py:xldnew"]}
{"id": "C21", "title": "Name to index resolution is exact", "statement": "Each area name is resolved to the index of the area of that name: distinct names get distinct indices in 0..NOAREA-1, every reference in the unit, line and interchange tables is replaced by the index of exactly that name, and an unknown name is rejected.", "quantifier": "all lists of names and references", "why_tests_cant": "all name lists, duplicates included", "anchors": ["reliabilityassessment/data_processing/pind.py:pind"]}
{"id": "C22", "title": "Outage probabilities become valid cumulative distributions", "statement": "For forced outage rate FOR and derating rate DFOR with 0<=FOR, 0<=DFOR, FOR+DFOR<=1 the unit's cumulative thresholds are non-decreasing in [0,1]; for line state probabilities p1..p6 >= 0 the thresholds are non-decreasing and the last one is their sum.", "quantifier": "all rates", "why_tests_cant": "all real inputs", "anchors": ["reliabilityassessment/data_processing/datax.py:datax"]}
{"id": "C23", "title": "Unit seasonal capacities are reduced according to the season of each week", "statement": "The vectorised seasonal capacity selection agrees with the loop version: the season of a day is the number of season ends at or before it.", "quantifier": "all days and season ends", "why_tests_cant": "differs only in one season, all days needed", "anchors": ["reliabilityassessment/data_processing/resca.py:resca", "reliabilityassessment/data_processing/resca.py:_resca"]}
{"id": "C24", "title": "Capacity outage probability table is the exact convolution", "statement": "Adding a three-state unit to the outage table gives, at every tabulated level X, P'(outage>=X) = p1 P(>=X) + p2 P(>=X-KP) + p3 P(>=X-KT); the table's levels are strictly increasing multiples of 10 MW and its probabilities non-increasing and in [0,1], starting with 1 at level 0. For any list of units (capacity of at least 4.5 MW, i.e. not rounded to 0, and up with probability above 1e-6) the table built by adding them one after the other gives the tail probabilities of the joint distribution of independent units with capacities rounded to 10 MW, from below and to within 1e-9 per unit (upper bound for less than 49500 MW in total).", "quantifier": "all tables, all units, all sequences of unit additions", "why_tests_cant": "a recursion over arbitrary many units", "anchors": ["reliabilityassessment/data_processing/gsm.py:gsm", "reliabilityassessment/data_processing/pmlolp.py:pmlolp"]}
{"id": "C25", "title": "The weekly maintenance table lists exactly the units on planned outage", "statement": "Row w of the planned-outage table lists unit i iff one of its outage windows covers week w, without duplicates, and the row's count is the number of listed units.", "quantifier": "all outage schedules", "why_tests_cant": "all schedules, end of year included", "anchors": ["reliabilityassessment/data_processing/smaint.py:smaint"]}
{"id": "C26", "title": "Loss of load counters count loss of load hours exactly once", "statement": "In an hour with a shortage, exactly one of the two pool loss-of-load counters (transmission or generation) of that forecast tier goes up by one and the other counters of that tier stay; an area's counters go up by one in total iff that area is short, other tiers are untouched.", "quantifier": "all margins, all counter states, all tiers, all area counts", "why_tests_cant": "all margin vectors including ties", "anchors": ["reliabilityassessment/monte_carlo/hrstat.py:hrstat", "reliabilityassessment/monte_carlo/pkstat.py:pkstat"]}
{"id": "C27", "title": "Unserved energy of the pool is the sum over its areas", "statement": "The pool's energy-not-served counters grow by exactly the sum of the areas' shortages, and this stays true over any history of hours.", "quantifier": "all histories of margins", "why_tests_cant": "needs induction over histories", "anchors": ["reliabilityassessment/monte_carlo/hrstat.py:hrstat", "reliabilityassessment/monte_carlo/pkstat.py:pkstat"]}
{"id": "C28", "title": "Loss cause classification is consistent between pool and areas", "statement": "In an hour with a shortage the pool and its short areas are given the same cause (transmission when the pool as a whole has enough, generation otherwise).", "quantifier": "all margin vectors", "why_tests_cant": "fails only on an exact tie", "anchors": ["reliabilityassessment/monte_carlo/hrstat.py:hrstat", "reliabilityassessment/monte_carlo/pkstat.py:pkstat"]}
{"id": "C29", "title": "Annual distributions count each simulated year once", "statement": "After k simulated years every area's hourly-LOLE, peak-LOLE and EUE histograms each hold exactly k entries, so the reported probabilities sum to one.", "quantifier": "all histories of years and annual counts", "why_tests_cant": "induction over years", "anchors": ["reliabilityassessment/monte_carlo/year.py:year", "reliabilityassessment/monte_carlo/report.py:report"]}
{"id": "C30", "title": "Annual counters restart from zero every year", "statement": "After the year-end evaluation all annual counters (area and pool, all tiers) are zero, so a year's statistics contain only events of that year.", "quantifier": "all area counts, tier counts and counter states", "why_tests_cant": "depends on the shape NOAREA x NFCST; tests use one shape", "anchors": ["reliabilityassessment/monte_carlo/year.py:year"]}
{"id": "C31", "title": "Final averages are the averages over all simulated years", "statement": "After k years the cumulative statistics of each area (per forecast tier and weighted over the tiers) and of the pool (per tier), and the sums of their squares, are those of the k annual ones, and total = transmission + generation; likewise at every moment of every run.", "quantifier": "all histories of years", "why_tests_cant": "an accumulation dropped between calls is only visible over several years", "anchors": ["reliabilityassessment/monte_carlo/year.py:year", "reliabilityassessment/monte_carlo/events.py:events", "reliabilityassessment/monte_carlo/contrl.py:contrl", "reliabilityassessment/monte_carlo/report.py:report"]}
{"id": "C32", "title": "A restart restores clock, calendar and statistics", "statement": "At every year end at which state is saved, the state reloaded by restart has the clock, the pending events, the season, all cumulative statistics and the network of the run at that moment.", "quantifier": "all interruption points", "why_tests_cant": "statement about all crash points", "anchors": ["reliabilityassessment/monte_carlo/intm.py:intm", "reliabilityassessment/monte_carlo/rstart.py:rstart"]}
{"id": "C33", "title": "Convergence test is sound", "statement": "For every chosen statistic of an area, and of the pool in the reference tier, the run is declared converged exactly if at least 5 years were simulated and the estimated standard error of the mean is below the tolerance times the mean (0 meaning 0.025), or the horizon is reached; the variance estimate under the root is never negative; and the two implementations agree.", "quantifier": "all histories of annual values, all tolerances", "why_tests_cant": "algebraic inequality over all histories", "anchors": ["reliabilityassessment/monte_carlo/cvchk.py:cvchk", "reliabilityassessment/monte_carlo/cvchk.py:_cvchk"]}
{"id": "C34", "title": "The bus admittance matrix is symmetric with zero row sums", "statement": "For any set of lines between different areas the admittance matrix is symmetric and every row sums to zero; the entry between two areas is minus the total admittance of the lines between them, and the diagonal entry is the total admittance of the lines at the area.", "quantifier": "all line sets and admittances", "why_tests_cant": "all networks", "anchors": ["reliabilityassessment/monte_carlo/admitb.py:admitb"]}
{"id": "C35", "title": "DC load flow satisfies Kirchhoff's law", "statement": "If the impedance matrix is the inverse of the reduced admittance matrix and the injections sum to zero, the net flow computed out of every area equals its injection with the code's sign, and the net flows over all areas sum to zero.", "quantifier": "all networks and injections", "why_tests_cant": "linear algebra over all sizes", "anchors": ["reliabilityassessment/monte_carlo/flo.py:flo", "reliabilityassessment/monte_carlo/theta.py:theta", "reliabilityassessment/monte_carlo/thetac.py:thetac", "reliabilityassessment/monte_carlo/admitr.py:admitr"]}
{"id": "C36", "title": "Rank-one impedance update keeps the impedance matrix the inverse", "statement": "When line admittances change (sampled line states), the modified impedance matrix is again the inverse of the reduced admittance matrix of the changed network, for lines between two non-reference areas and for lines at the reference area.", "quantifier": "all networks, lines and admittance changes with non-singular result", "why_tests_cant": "matrix identity over all sizes", "anchors": ["reliabilityassessment/monte_carlo/ximpa.py:ximpa", "reliabilityassessment/monte_carlo/ximpar.py:ximpar", "reliabilityassessment/monte_carlo/admitm.py:admitm", "reliabilityassessment/monte_carlo/admref.py:admref"]}
{"id": "C37", "title": "Reducing the network removes exactly the reference area", "statement": "The reduced admittance matrix is the admittance matrix without row and column of the reference area, and the area index map is a permutation putting the reference area last; both implementations agree.", "quantifier": "all networks and reference areas", "why_tests_cant": "all sizes and reference positions", "anchors": ["reliabilityassessment/monte_carlo/admitr.py:admitr"]}
{"id": "C38", "title": "A solution accepted without curtailment respects all line and area limits", "statement": "When the transmission module accepts the scheduled injections without re-dispatch, every line flow is within the line's forward and backward capacity in its sampled state and every constrained area's export/import is within its limits.", "quantifier": "all networks, states and injections", "why_tests_cant": "all flows", "anchors": ["reliabilityassessment/monte_carlo/tm2.py:tm2"]}
{"id": "C39", "title": "The transmission module leaves the base network unchanged", "statement": "After evaluating an hour with lines out, the base admittance and impedance matrices are those of the intact network, so that later hours see the right network.", "quantifier": "all hours, line states and networks", "why_tests_cant": "state leak between hours, on particular paths only", "anchors": ["reliabilityassessment/monte_carlo/tm2.py:tm2", "reliabilityassessment/monte_carlo/transm.py:transm"]}
{"id": "C40", "title": "Assistance assignment balances the pool and sheds exactly the shortage", "statement": "The assigned injections sum to zero; load curtailed is non-negative and adds up to the pool's shortage; areas with a surplus never import and export at most their surplus plus their own curtailed load; areas with a deficit are supplied or curtailed by exactly their deficit; with loss sharing the curtailment is proportional to the areas' loads, without it proportional to their deficits; both implementations agree.", "quantifier": "all margins, loads and area sets", "why_tests_cant": "all vectors", "anchors": ["reliabilityassessment/monte_carlo/assign.py:assign"]}
{"id": "C41", "title": "The linear program solver keeps a correct basis", "statement": "After every pivot of the simplex routine the stored inverse is the inverse of the current basis columns, the stored basic solution is that inverse times the right hand side, a non-negative solution stays non-negative up to the tolerances, and the objective does not increase, in exact arithmetic; on return the solution is optimal up to the tolerance of 1e-7.", "quantifier": "all LPs and all pivot sequences", "why_tests_cant": "induction over pivots", "anchors": ["reliabilityassessment/monte_carlo/linp.py:linp"]}
{"id": "C42", "title": "LP results are mapped back to the right areas", "statement": "The area injections, the curtailments and the line flows reported after a re-dispatch are those of the solution of the linear program, for every area and line.", "quantifier": "all bases and solutions", "why_tests_cant": "an off-by-one concerns one variable only", "anchors": ["reliabilityassessment/monte_carlo/net.py:net"]}
{"id": "C43", "title": "An hour without any shortage is processed without error", "statement": "For every hour in which no area is short the hourly event returns normally and leaves all statistics unchanged.", "quantifier": "all draws and loads", "why_tests_cant": "depends on the drawn state", "anchors": ["reliabilityassessment/monte_carlo/hour.py:hour"]}
{"id": "C44", "title": "Skipping lower forecast tiers is sound", "statement": "If no area is short at a forecast tier then no area is short at any later tier, so stopping there loses no shortage.", "quantifier": "all loads, uncertainties and capacities", "why_tests_cant": "all real inputs", "anchors": ["reliabilityassessment/monte_carlo/hour.py:hour", "reliabilityassessment/monte_carlo/findld.py:findld", "reliabilityassessment/data_processing/datax.py:datax"]}
{"id": "C45", "title": "Peak statistics are collected at each day's pool peak hour", "statement": "On every day the peak statistics are collected exactly in the hour of that day with the largest pool load.", "quantifier": "all days of the year and load tables", "why_tests_cant": "fails only for one hour of the year", "anchors": ["reliabilityassessment/monte_carlo/hour.py:hour", "reliabilityassessment/data_processing/plhr.py:plhr"]}
{"id": "C46", "title": "Matrix factorisation and inversion are exact", "statement": "For every non-singular matrix the factorise/invert pair used by the transmission model returns its inverse (in exact arithmetic).", "quantifier": "all sizes and matrices", "why_tests_cant": "all matrices, pivot orders", "anchors": ["reliabilityassessment/monte_carlo/dgefa.py:dgefa", "reliabilityassessment/monte_carlo/dgedi.py:dgedi"]}
{"id": "C47", "title": "Successive draws of a unit are not tied by a fixed relation", "statement": "The states drawn for a unit in three successive hours satisfy no fixed linear relation modulo the generator's period (three-dimensional independence of the variates): no pattern of three outcomes of positive probability is excluded.", "quantifier": "all seeds and all three successive draws", "why_tests_cant": "statistical tests on a sample cannot show the absence or presence of a structural relation", "anchors": ["reliabilityassessment/monte_carlo/gstate.py:gstate"]}
{"id": "C48", "title": "Sampling every n hours keeps the drawn states in between", "statement": "With sampling frequency n > 1 the unit and line states are redrawn in every n-th hour and kept for the hours in between; in every processed hour in which states are drawn each random stream advances exactly one step.", "quantifier": "all sampling frequencies, hours and seeds", "why_tests_cant": "depends on the relation of clock and frequency over a whole run", "anchors": ["reliabilityassessment/monte_carlo/hour.py:hour"]}
{"id": "C49", "title": "Annual loss counters stay within their natural bounds", "statement": "At any moment of a simulated year, for every forecast tier: the pool's loss-of-load hours do not exceed the hours simulated, an area's do not exceed the pool's, peak-hour counts do not exceed the hourly counts, no counter is negative and the pool's unserved energy is the sum of the areas' unserved energy.", "quantifier": "all histories of hours of a year", "why_tests_cant": "an invariant over unbounded histories of random draws", "anchors": ["reliabilityassessment/monte_carlo/hour.py:hour", "reliabilityassessment/monte_carlo/hrstat.py:hrstat", "reliabilityassessment/monte_carlo/pkstat.py:pkstat"]}
{"id": "C50", "title": "The annual result table reports every area, tier and cause consistently", "statement": "Whenever annual results are printed, for every area and pool, every forecast tier plus the weighted average and every cause, the table shows the number of loss-of-load hours, the unserved energy and the mean shortage = unserved energy / loss-of-load hours (0 when there was no loss).", "quantifier": "all annual counters, tiers and causes", "why_tests_cant": "stale values of another row show only for particular patterns of zero counters", "anchors": ["reliabilityassessment/monte_carlo/year.py:year"]}
{"id": "C51", "title": "The network matrices can be built exactly when the network is connected", "statement": "For lines between different areas with admittances of one sign, the set-up of the transmission network succeeds if and only if every area is connected to the reference area by lines, and then the stored impedance matrix is the inverse of the reduced admittance matrix.", "quantifier": "all networks, admittances and reference areas", "why_tests_cant": "connectivity of graphs of any size; linear algebra over all sizes", "anchors": ["reliabilityassessment/monte_carlo/tm1.py:tm1", "reliabilityassessment/monte_carlo/admitb.py:admitb", "reliabilityassessment/monte_carlo/admitr.py:admitr"]}
{"id": "C52", "title": "Assistance only redistributes the pool's margin", "statement": "In every hourly transmission evaluation in which no line or area limit binds, the areas' margins after assistance add up to the pool margin before assistance, and the sum of the reported shortages equals max(0, total demand - total available capacity).", "quantifier": "all networks, line states, schedules, capacities, loads, with and without loss sharing", "why_tests_cant": "a conservation law over all real inputs and network sizes, through two load flows", "anchors": ["reliabilityassessment/monte_carlo/transm.py:transm", "reliabilityassessment/monte_carlo/tm2.py:tm2", "reliabilityassessment/monte_carlo/assign.py:assign"]}
{"id": "C53", "title": "Reported shortages are backed by feasible flows", "statement": "In every hourly transmission evaluation in which no limit binds, starting from the intact network (the first of an hour, or a later one when none before it needed a re-dispatch), there are line flows within the capacities of the sampled line states under which every area's net export is its margin plus its reported shortage; with loss sharing they are also within the areas' import and export limits.", "quantifier": "all networks, line states, schedules, capacities, loads, with and without loss sharing", "why_tests_cant": "existence of feasible flows over all networks; the total of two load flows", "anchors": ["reliabilityassessment/monte_carlo/transm.py:transm", "reliabilityassessment/monte_carlo/tm2.py:tm2"]}
{"id": "C54", "title": "Area limits survive every evaluation", "statement": "After every hourly transmission evaluation, with or without re-dispatch, the areas' import and export limits are those of the input data.", "quantifier": "all networks, states and hours", "why_tests_cant": "temporary in-place changes on several paths", "anchors": ["reliabilityassessment/monte_carlo/transm.py:transm", "reliabilityassessment/monte_carlo/tm2.py:tm2"]}
{"id": "C55", "title": "The re-dispatch program is the transmission dispatch problem", "statement": "The linear program set up for a re-dispatch has a solution with given injections, angles and cost exactly when these form a dispatch of the network: Kirchhoff's laws, line limits, area import and export limits, injections between 0 and the surplus or minus the deficit; its cost is the total unserved load, and it always has a solution.", "quantifier": "all networks, line states, limits and margins", "why_tests_cant": "equivalence of two infinite sets of solutions for all sizes", "anchors": ["reliabilityassessment/monte_carlo/connls.py:connls", "reliabilityassessment/monte_carlo/linp.py:linp"]}
{"id": "C56", "title": "A re-dispatch yields an optimal dispatch", "statement": "The flows and injections after a re-dispatch are a dispatch of the network within all limits, and no dispatch within the limits serves more load (up to the tolerance of the solver).", "quantifier": "all networks, limits and margins on which the solver returns", "why_tests_cant": "optimality over all dispatches of all networks", "anchors": ["reliabilityassessment/monte_carlo/connls.py:connls", "reliabilityassessment/monte_carlo/linp.py:linp", "reliabilityassessment/monte_carlo/net.py:net", "reliabilityassessment/monte_carlo/tm2.py:tm2"]}
{"id": "C57", "title": "A re-dispatch is possible for every admissible setting", "statement": "Whenever a limit binds, the re-dispatch completes without an error: with and without loss sharing, with the detailed listing on or off, for every network within the documented sizes (20 areas, 100 lines).", "quantifier": "all settings and network sizes", "why_tests_cant": "depends on the combination of setting, size and binding limits", "anchors": ["reliabilityassessment/monte_carlo/tm2.py:tm2", "reliabilityassessment/monte_carlo/linp.py:linp", "reliabilityassessment/monte_carlo/connls.py:connls"]}
{"id": "C58", "title": "The shortages recorded in re-dispatched hours are those of an optimal dispatch", "statement": "In every hourly transmission evaluation in which a limit binds, the recorded shortage of every area is its unserved load in a dispatch within all limits with the least total unserved load.", "quantifier": "all networks, line states, schedules, capacities and loads", "why_tests_cant": "a statement about all alternative dispatches through the whole evaluation", "anchors": ["reliabilityassessment/monte_carlo/transm.py:transm", "reliabilityassessment/monte_carlo/tm2.py:tm2"]}
{"id": "C59", "title": "An hour records exactly the shortages that remain after assistance", "statement": "In every hourly event that returns, the loss-of-load hours and the unserved energy of every area and of the pool grow, tier by tier, by exactly the shortages of at least 1 MW (in whole MW) that remain after assistance: the deficits themselves if every area is short, otherwise the shortages returned by the transmission evaluation; the peak counters likewise in peak hours; tiers after the first one without shortage record nothing.", "quantifier": "all systems, draws, hours, loads and transmission results", "why_tests_cant": "a relation between the whole evaluation and all counters for every draw", "anchors": ["reliabilityassessment/monte_carlo/hour.py:hour", "reliabilityassessment/monte_carlo/hrstat.py:hrstat", "reliabilityassessment/monte_carlo/pkstat.py:pkstat"]}
{"id": "C60", "title": "Without binding limits the recorded energy is what the pool lacks", "statement": "In every hour in which no line or area limit binds, in every forecast tier, the unserved energy recorded for the pool is max(0, total load forecast - total available capacity) up to less than 1 MW per area; a pool shortage of at least as many MW as there are areas is counted as one loss-of-load hour, a shortage under 1 MW as none.", "quantifier": "all networks, draws, loads, tiers and hours", "why_tests_cant": "end-to-end property of draw, load flow, assignment and statistics", "anchors": ["reliabilityassessment/monte_carlo/hour.py:hour", "reliabilityassessment/monte_carlo/transm.py:transm"]}
{"id": "C61", "title": "Scheduled interchange is carried out as scheduled", "statement": "In every transmission evaluation in which no limit binds there are flows within the line capacities under which an area scheduled to import gets its schedule but at most what it is short of, and an area scheduled to export exports at most its schedule and exactly it if all importers need theirs; these are the reported flows if everybody is then served, else the reported flows come on top.", "quantifier": "all networks, line states, contracts, ownership shares, capacities and loads", "why_tests_cant": "all real inputs and network sizes", "anchors": ["reliabilityassessment/monte_carlo/transm.py:transm", "reliabilityassessment/monte_carlo/findtn.py:findtn", "reliabilityassessment/monte_carlo/sumcap.py:sumcap"]}
{"id": "C62", "title": "Planned maintenance is scheduled as asked", "statement": "For every system: a unit with a pre-set maintenance schedule keeps its weeks; a unit whose schedule is left to the program gets its outages inside the maintenance window of its area, outside the forbidden period; scheduling one area changes no other unit, and the planned outage table lists exactly the resulting outages.", "quantifier": "all systems, capacities, loads, windows and maintenance durations", "why_tests_cant": "the placement depends on all units of the area; tests only contain systems without maintenance", "anchors": ["reliabilityassessment/data_processing/pmsc.py:pmsc", "reliabilityassessment/data_processing/smaint.py:smaint", "reliabilityassessment/data_processing/datax.py:datax"]}
{"id": "C63", "title": "The final report states the averages of all simulated years", "statement": "For every history of simulated years, the final report lists, per area (per forecast tier and weighted) and for the pool per forecast tier, the mean over all years of the loss-of-load hours, days and unserved energy; the summary adds for each area peak, capacity, reserve and the standard deviation of each mean, and each distribution table counts the years per class with probabilities that sum to one; tables are numbered consecutively.", "quantifier": "all histories of year ends, numbers of areas and tiers", "why_tests_cant": "a relation between the printed numbers and a whole history of years of any length", "anchors": ["reliabilityassessment/monte_carlo/report.py:report", "reliabilityassessment/monte_carlo/year.py:year"]}
{"id": "C64", "title": "The input cards take effect as described", "statement": "For every accepted input: the capacity available to an area in a draw is the sum over exactly the units whose cards name that area, each with the fraction given by the outage rates of its card; the load of an area is the profile of its section scaled to the peak of its card; the import and export limits of an area are those of its card at every moment; every sensible input in which all names are known is accepted, an input naming an unknown area or unit is not.", "quantifier": "all inputs: any number of areas, units, lines and any names and values", "why_tests_cant": "names are resolved by joins and index arithmetic; holds for all tables, not for an example", "anchors": ["reliabilityassessment/data_processing/datax.py:datax", "reliabilityassessment/data_processing/dataf1.py:dataf1", "reliabilityassessment/data_processing/xldnew.py:xldnew", "reliabilityassessment/data_processing/readInputB.py:readInputB"]}
{"id": "C65", "title": "Contracts and joint ownership can be entered", "statement": "An input with contract cards or ownership cards that names known areas and units is accepted, and the contracts and ownership shares take effect.", "quantifier": "all inputs with at least one such card", "why_tests_cant": "no test input contains such cards", "anchors": ["reliabilityassessment/data_processing/datax.py:datax", "reliabilityassessment/data_processing/readInputB.py:readInputB"]}
{"id": "C66", "title": "A line out of service carries nothing", "statement": "A line state entered with zero admittance and zero capacities carries no power: an area connected only by such lines is not assisted.", "quantifier": "all networks and line states", "why_tests_cant": "needs the whole path from the card to the recorded shortage", "anchors": ["reliabilityassessment/data_processing/datax.py:datax", "reliabilityassessment/monte_carlo/transm.py:transm"]}
{"id": "C67", "title": "Cards are used in the order of their serial numbers", "statement": "The result for an input depends on the serial numbers of the cards as documented: the cards are used in the order of their serial numbers, whatever the order in which they are written.", "quantifier": "all inputs and permutations of the cards", "why_tests_cant": "a statement about all permutations of all inputs", "anchors": ["reliabilityassessment/data_processing/readInputB.py:readInputB"]}
{"id": "C68", "title": "Line numbers are only labels", "statement": "Two inputs that differ only in the numbers given to the lines yield the same simulation.", "quantifier": "all inputs and all numberings", "why_tests_cant": "a relation between pairs of inputs", "anchors": ["reliabilityassessment/data_processing/datax.py:datax", "reliabilityassessment/monte_carlo/net.py:net", "reliabilityassessment/monte_carlo/transm.py:transm"]}
{"id": "C69", "title": "The capacity of an area at every draw follows from the cards", "statement": "In every run of every accepted input, at every draw the capacity of an area is the sum over the units its cards place there of the drawn fraction times the rating of the card for the current season, without the units whose cards plan an outage in the current week.", "quantifier": "all inputs, all runs, all draws", "why_tests_cant": "end-to-end property of input processing and of the event history up to the draw", "anchors": ["reliabilityassessment/data_processing/datax.py:datax", "reliabilityassessment/monte_carlo/week.py:week", "reliabilityassessment/monte_carlo/gstate.py:gstate", "reliabilityassessment/monte_carlo/narpMain.py:narpMain"]}
{"id": "C70", "title": "The planned outage weeks of the cards are respected", "statement": "In every run of every accepted input, exactly the units whose cards plan an outage in the current calendar week are off at each draw of that week.", "quantifier": "all inputs, all runs, all draws", "why_tests_cant": "depends on the event history; a one-week shift is invisible for inputs without maintenance", "anchors": ["reliabilityassessment/data_processing/smaint.py:smaint", "reliabilityassessment/monte_carlo/week.py:week", "reliabilityassessment/monte_carlo/narpMain.py:narpMain"]}
{"id": "C71", "title": "The energy not served at every draw follows from the cards", "statement": "In every run of every accepted input, at every draw in which no line or area limit binds and for every forecast tier, the unserved energy recorded for the pool is what the pool lacks according to the cards (scaled load profiles times forecast factor, minus the drawn capacity of the units for the current season without planned outages of the current week), up to less than 1 MW per area.", "quantifier": "all inputs, all runs, all draws, all tiers", "why_tests_cant": "end-to-end property of input processing, event history, load flow and statistics", "anchors": ["reliabilityassessment/data_processing/datax.py:datax", "reliabilityassessment/monte_carlo/narpMain.py:narpMain", "reliabilityassessment/monte_carlo/hour.py:hour", "reliabilityassessment/monte_carlo/transm.py:transm"]}
{"id": "C72", "title": "The final report shows the statistics of the simulated years", "statement": "In every run of every accepted input that ends, the final report shows for each area and the pool the mean over the simulated years of the loss-of-load hours, days and energy that the draws of these years recorded, averaged over the forecast tiers; the peak and the installed capacity of the cards; and the distribution of the annual values.", "quantifier": "all inputs, all runs that end, all areas", "why_tests_cant": "end-to-end property from the cards through the whole history to the printed report; a test has one history", "anchors": ["reliabilityassessment/monte_carlo/narpMain.py:narpMain", "reliabilityassessment/monte_carlo/year.py:year", "reliabilityassessment/monte_carlo/report.py:report", "reliabilityassessment/data_processing/datax.py:datax"]}
{"id": "C73", "title": "The random numbers of different units and lines are unrelated", "statement": "The random number used for a unit or line at a draw is not determined by those of other units and lines: no unit (or line) repeats the random numbers of another, or its own, within the horizon of a study.", "quantifier": "all inputs, all runs, all units, lines and draws", "why_tests_cant": "a statement about the generator over millions of draws", "anchors": ["reliabilityassessment/monte_carlo/seeder.py:seeder", "reliabilityassessment/monte_carlo/gstate.py:gstate", "reliabilityassessment/monte_carlo/lstate.py:lstate", "reliabilityassessment/monte_carlo/narpMain.py:narpMain"]}
{"id": "C74", "title": "The load file is read as written", "statement": "Every load file whose sections belong to different areas of the study with one-digit numbers and hold a year of rows with twelve decimal numbers each is read without error, in any layout (blanks and tabs, a date before the numbers, signs, decimal points, exponents, Unix or Windows line ends, last line not ended), and the load of each area in each hour is exactly the number written for it.", "quantifier": "all texts of load files, all numbers and layouts, all hours", "why_tests_cant": "the set of texts is unbounded; a test reads one file", "anchors": ["reliabilityassessment/data_processing/xldnew.py:xldnew"]}
{"id": "C75", "title": "The line cards are read as written", "statement": "A line card whose data column holds 24 decimal numbers separated by commas, in any layout, gives state s = 0..5 of the line the admittance, forward capacity, backward capacity and probability that are the numbers 4s, 4s+1, 4s+2 and 4s+3 of the text; with any other number of numbers the card is rejected with an error.", "quantifier": "all texts of line cards", "why_tests_cant": "the set of texts is unbounded", "anchors": ["reliabilityassessment/data_processing/readInputB.py:read_card_ZZTD"]}
{"id": "C76", "title": "Input files in good form become the study they describe", "statement": "For every set of input files with one row of settings, line cards of 24 numbers and a load file with a year per section, reading succeeds and the study has exactly the areas, units, lines, contracts, shares and settings of the files; with no or several rows of settings it is rejected.", "quantifier": "all input files", "why_tests_cant": "all tables and texts", "anchors": ["reliabilityassessment/data_processing/readInputB.py:readInputB", "reliabilityassessment/data_processing/xldnew.py:xldnew", "reliabilityassessment/data_processing/dataf1.py:dataf1"]}
{"id": "C77", "title": "A damaged row of a load file is rejected", "statement": "If a load file contains a row with no numbers or with 2 to 11 numbers, a row with a word that is no number, a heading without an area number, or data before the first heading, it is rejected with an error.", "quantifier": "all texts of load files", "why_tests_cant": "a statement about all faulty texts", "anchors": ["reliabilityassessment/data_processing/xldnew.py:xldnew"]}
{"id": "C78", "title": "Line derating cards take effect", "statement": "A line derating card multiplies the ratings of its line by its factors whenever all units it names are out.", "quantifier": "all inputs with such cards, all draws", "why_tests_cant": "no test input contains such cards", "anchors": ["reliabilityassessment/data_processing/readInputB.py:read_card_ZZDD", "reliabilityassessment/data_processing/datax.py:datax"]}
{"id": "C79", "title": "The random streams are determined by the user's seed", "statement": "Two runs of the program that differ only in the seed of the input use different random streams.", "quantifier": "all seeds, all studies", "why_tests_cant": "a constant seed passes every regression test", "anchors": ["reliabilityassessment/monte_carlo/narpMain.py:narpMain", "reliabilityassessment/monte_carlo/seeder.py:seeder"]}
{"id": "C80", "title": "Load data of ten or more areas belong to the area named", "statement": "In a load file with ten or more sections, the rows of a section become the load of the area whose number heads it.", "quantifier": "all load files and area counts", "why_tests_cant": "the area number is read from one character; tests have fewer areas", "anchors": ["reliabilityassessment/data_processing/xldnew.py:xldnew"]}
{"id": "C81", "title": "The two implementations of the hourly statistics agree", "statement": "The loop version and the vectorised version of the hourly and daily statistics leave the same counters.", "quantifier": "all margins, loads and counter states", "why_tests_cant": "agreement on all rational inputs", "anchors": ["reliabilityassessment/monte_carlo/hrstat.py:hrstat", "reliabilityassessment/monte_carlo/hrstat.py:_hrstat", "reliabilityassessment/monte_carlo/pkstat.py:pkstat"]}
{"id": "C82", "title": "The pool's weighted totals cover all years", "statement": "After k years the pool's cumulative statistics weighted over the forecast tiers are the sums of the k annual ones.", "quantifier": "all histories of years", "why_tests_cant": "an accumulation dropped between calls is only visible over several years", "anchors": ["reliabilityassessment/monte_carlo/year.py:year", "reliabilityassessment/monte_carlo/events.py:events", "reliabilityassessment/monte_carlo/contrl.py:contrl"]}
{"id": "C83", "title": "Interrupting and restarting resumes the same simulation", "statement": "A run resumed from a saved state continues exactly as the uninterrupted run: same random numbers, same units under maintenance, same results, same later savings.", "quantifier": "all interruption points", "why_tests_cant": "statement about all crash points", "anchors": ["reliabilityassessment/monte_carlo/intm.py:intm", "reliabilityassessment/monte_carlo/rstart.py:rstart"]}
{"id": "C84", "title": "Convergence of the pool's weighted statistic is sound", "statement": "When the chosen statistic is that of the pool averaged over the forecast tiers, the run is declared converged only if its standard error is below the tolerance times its mean or the horizon is reached.", "quantifier": "all histories of annual values, all tolerances", "why_tests_cant": "needs histories of at least five years", "anchors": ["reliabilityassessment/monte_carlo/cvchk.py:cvchk", "reliabilityassessment/monte_carlo/year.py:year"]}
{"id": "C85", "title": "The re-dispatch gets the admittance matrix of the sampled network", "statement": "The modified admittance matrix handed to the re-dispatch is the reduced admittance matrix of the network with the sampled line states.", "quantifier": "all networks, reference areas and line states", "why_tests_cant": "matrix identity over all sizes", "anchors": ["reliabilityassessment/monte_carlo/admref.py:admref", "reliabilityassessment/monte_carlo/tm2.py:tm2"]}
{"id": "C86", "title": "Every hour starts from the intact network", "statement": "The first transmission evaluation of every hour gives the same result and leaves the same network whatever earlier evaluations left in the network arrays, as long as the area limits are the same (which every evaluation restores).", "quantifier": "all networks, line states and histories", "why_tests_cant": "state leak between hours, on particular paths only", "anchors": ["reliabilityassessment/monte_carlo/transm.py:transm", "reliabilityassessment/monte_carlo/net.py:net"]}
{"id": "C87", "title": "The linear program solver returns an answer for every program", "statement": "The solver returns on every program that has an optimum, keeps the solution non-negative, and reports programs that are unbounded or have no feasible point.", "quantifier": "all linear programs", "why_tests_cant": "termination and degeneracy cannot be tested", "anchors": ["reliabilityassessment/monte_carlo/linp.py:linp"]}
{"id": "C88", "title": "Reported shortages respect the areas' limits without loss sharing", "statement": "Without loss sharing, when no limit binds, the flows that belong to the reported shortages are within the areas' import and export limits.", "quantifier": "all networks, line states, schedules, capacities, loads", "why_tests_cant": "existence of feasible flows over all networks", "anchors": ["reliabilityassessment/monte_carlo/transm.py:transm", "reliabilityassessment/monte_carlo/tm2.py:tm2"]}
{"id": "C89", "title": "The final report states the pool's averages", "statement": "For every history of simulated years the pool's line of the final report shows the sums of the areas' peaks and capacities, its reserve, the means over all years of its loss-of-load hours, days and unserved energy averaged over the tiers, and the standard deviation of each mean.", "quantifier": "all histories of year ends, numbers of areas and tiers", "why_tests_cant": "a relation between the printed numbers and a whole history of years of any length", "anchors": ["reliabilityassessment/monte_carlo/report.py:report", "reliabilityassessment/monte_carlo/year.py:year"]}
{"id": "C90", "title": "The line cards take effect as described", "statement": "For every accepted input the lines of the simulated network connect the areas their cards name, with the admittances, capacities and probabilities of their cards.", "quantifier": "all inputs: any number of areas and lines and any names and values", "why_tests_cant": "names are resolved by joins and index arithmetic; holds for all tables, not for an example", "anchors": ["reliabilityassessment/data_processing/datax.py:datax", "reliabilityassessment/data_processing/dataf1.py:dataf1"]}
{"id": "C91", "title": "An incomplete load file is rejected", "statement": "A load file with a row that does not hold twelve numbers, with less than a year of rows for an area, or without a section for some area, is rejected with an error.", "quantifier": "all texts of load files", "why_tests_cant": "a statement about all faulty texts", "anchors": ["reliabilityassessment/data_processing/xldnew.py:xldnew"]}
{"id": "C92", "title": "The loss-sharing program is the dispatch problem with loss sharing", "statement": "The linear program set up for loss sharing has as its solutions exactly the dispatches in which areas may shed load to help others: line flows that follow from angles, generation up to what is available, shed load up to the load, line and area limits respected; its cost is the total load shed, it always has a solution, its starting basis is valid, and the optimum never sheds more than a dispatch without loss sharing.", "quantifier": "all networks, line capacities, area limits, loads and generation", "why_tests_cant": "an equivalence between a matrix of coefficients and a physical problem, for all networks", "anchors": ["reliabilityassessment/monte_carlo/conls.py:conls", "reliabilityassessment/monte_carlo/linp.py:linp"]}
{"id": "C93", "title": "Both dispatch programs read the area limits the same way", "statement": "The dispatch programs with and without loss sharing take an area's import limit and export limit from the same columns of the area table.", "quantifier": "all networks and area limits", "why_tests_cant": "agreement of two programs for all inputs; the limits are equal in most test data", "anchors": ["reliabilityassessment/monte_carlo/conls.py:conls", "reliabilityassessment/monte_carlo/connls.py:connls", "reliabilityassessment/monte_carlo/transm.py:transm"]}
{"id": "C94", "title": "The alternative line samplers draw the same states", "statement": "Given the same random numbers and a table of cumulative probabilities that ends at 1, the two alternative line sampling functions return the states that the program's own sampler gives, except for numbers that equal a threshold; tables that do not end near 1 are rejected.", "quantifier": "all tables of six cumulative probabilities, all lists of random numbers", "why_tests_cant": "agreement for all tables and numbers; the functions draw at random", "anchors": ["reliabilityassessment/monte_carlo/line_prob_sampling.py:lstate_original", "reliabilityassessment/monte_carlo/line_prob_sampling.py:discrete_prob_gen", "reliabilityassessment/monte_carlo/lstate.py:lstate"]}
{"id": "C95", "title": "Rounding does not change the states drawn", "statement": "In every run, with outage rates and line state probabilities written with at most nine decimals, every draw in binary64 arithmetic gives every unit and every line the state that exact arithmetic gives it, and the same next random state.", "quantifier": "all rates and probabilities with nine decimals, any number of units and lines, all histories of draws", "why_tests_cant": "a statement about two billion variates against all thresholds; a test compares a few", "anchors": ["reliabilityassessment/monte_carlo/gstate.py:gstate", "reliabilityassessment/monte_carlo/lstate.py:lstate", "reliabilityassessment/data_processing/datax.py:datax"]}
{"id": "C96", "title": "Rounding keeps the shape of the scaled loads", "statement": "In binary64 arithmetic the scaled loads of an area have exactly the card's peak as their maximum, keep the order of the hours, and are within a relative error of 2^-51 of the exactly scaled loads.", "quantifier": "all load files with some load of at least 0.001 and all card peaks", "why_tests_cant": "rounding effects depend on the values; a bound for all values", "anchors": ["reliabilityassessment/data_processing/xldnew.py:xldnew"]}
{"id": "C97", "title": "A load file whose peak is the card's peak is used as written", "statement": "If the largest load of the file is the peak load of the card, the loads used in the simulation are the loads of the file.", "quantifier": "all load files and card peaks", "why_tests_cant": "the effect appears for some values only", "anchors": ["reliabilityassessment/data_processing/xldnew.py:xldnew", "reliabilityassessment/monte_carlo/hour.py:hour"]}
{"id": "C98", "title": "Rounding changes a recorded margin by at most 1 MW", "statement": "For given capacities and load file the whole-MW margin of an area in a forecast tier, formed in binary64, differs from the exact one by at most 1 MW, and not at all unless the exact margin is within 2^-28 MW of a whole number other than 0.", "quantifier": "all capacities and peaks up to a million MW, loads that are not negative, forecast factors up to 2", "why_tests_cant": "an error bound for all values", "anchors": ["reliabilityassessment/monte_carlo/hour.py:hour", "reliabilityassessment/monte_carlo/findld.py:findld", "reliabilityassessment/data_processing/xldnew.py:xldnew"]}
{"id": "C99", "title": "The convergence test is sound in floating point", "statement": "The convergence test never takes the root of a negative number, stops the run when the standard error is clearly below the threshold, and does not stop it when the standard error is clearly above.", "quantifier": "all sequences of annual values of any length", "why_tests_cant": "cancellation in the variance depends on the whole sequence of annual values", "anchors": ["reliabilityassessment/monte_carlo/cvchk.py:cvchk", "reliabilityassessment/monte_carlo/year.py:year"]}
{"id": "C100", "title": "The simulated calendar is free of rounding", "statement": "With a horizon of whole hours up to 2^50 the main loop in binary64 arithmetic processes the same events at the same times and ends in the same way and state as in exact arithmetic; the number of each year is found correctly.", "quantifier": "all horizons, both sampling modes, any handlers, any number of steps", "why_tests_cant": "accumulated rounding over runs of any length", "anchors": ["reliabilityassessment/monte_carlo/contrl.py:contrl", "reliabilityassessment/monte_carlo/hour.py:hour", "reliabilityassessment/monte_carlo/week.py:week", "reliabilityassessment/monte_carlo/quartr.py:quartr", "reliabilityassessment/monte_carlo/year.py:year"]}
{"id": "C101", "title": "Rounding from the random draw to the recorded margin", "statement": "In every run the margin of an area formed in binary64 - from the random numbers, outage rates, deratings, ratings and loads - differs from the one of exact arithmetic by at most 1 MW, and not at all unless the exact margin is within 2^-16 MW of a whole number other than 0.", "quantifier": "all histories of draws, up to 8192 units of up to 8192 MW, rates with nine decimals, all load files and peaks up to a million MW", "why_tests_cant": "errors of a chain of operations for all inputs and histories", "anchors": ["reliabilityassessment/monte_carlo/gstate.py:gstate", "reliabilityassessment/monte_carlo/sumcap.py:sumcap", "reliabilityassessment/monte_carlo/findld.py:findld", "reliabilityassessment/monte_carlo/hour.py:hour", "reliabilityassessment/data_processing/datax.py:datax", "reliabilityassessment/data_processing/xldnew.py:xldnew"]}
{"id": "C102", "title": "The snapshot on disk is the last one due", "statement": "At every moment between two events of a run the snapshot file holds the state of the run right after the end of the last year that is a multiple of the chosen interval, or the last year of the horizon; before the first such year there is no snapshot. With a positive interval an interruption between events costs less than one interval of simulated years.", "quantifier": "all inputs, all histories, every point of a run between events", "why_tests_cant": "statement about every crash point of every run", "anchors": ["reliabilityassessment/monte_carlo/year.py:year", "reliabilityassessment/monte_carlo/intm.py:intm", "reliabilityassessment/data_processing/datax.py:datax"]}
{"id": "C103", "title": "A crash never costs the whole run, and a finished run is on disk", "statement": "Once a snapshot was written, at every instant (also while the next one is being written) the file yields a snapshot of the run or an error but never wrong data, and a usable snapshot exists; when a run has ended the file holds its final state.", "quantifier": "all crash points during a write, all endings of a run", "why_tests_cant": "statement about every instant of a write and every run", "anchors": ["reliabilityassessment/monte_carlo/intm.py:intm", "reliabilityassessment/monte_carlo/rstart.py:rstart", "reliabilityassessment/monte_carlo/year.py:year"]}
{"id": "C104", "title": "The books of every hour balance in every area", "statement": "At every draw of every run the recorded shortages are backed by line flows within the ratings of the states drawn and within the areas' flow limits, under which in every area the capacity available according to the cards plus the shortage equals the load according to the cards plus the net export.", "quantifier": "all accepted inputs, random streams, hours, forecast tiers", "why_tests_cant": "existence of feasible flows at every draw of every run; a test sees a few hours of one input", "anchors": ["reliabilityassessment/monte_carlo/hour.py:hour", "reliabilityassessment/monte_carlo/transm.py:transm", "reliabilityassessment/monte_carlo/tm2.py:tm2", "reliabilityassessment/monte_carlo/lstate.py:lstate", "reliabilityassessment/monte_carlo/sumcap.py:sumcap", "reliabilityassessment/data_processing/readInputB.py:readInputB"]}
{"id": "C105", "title": "Over the generator's period every unit and line is in each state as often as its card says", "statement": "In any stretch of 8388608 successive draws of a run (the full period of the generator) each unit is at full capacity, derated and out, and each line in each of its six states, as often as the probabilities on its card say, up to 3 draws; the shares of its capacity a unit delivers add up to what the card says on average, up to 3/2 draws.", "quantifier": "all outage rates, all units and lines, all stretches of a full period in all runs", "why_tests_cant": "a frequency over eight million draws of every stream, for all rates", "anchors": ["reliabilityassessment/monte_carlo/gstate.py:gstate", "reliabilityassessment/monte_carlo/lstate.py:lstate", "reliabilityassessment/monte_carlo/seeder.py:seeder", "reliabilityassessment/monte_carlo/hour.py:hour", "reliabilityassessment/data_processing/datax.py:datax"]}
{"id": "C106", "title": "The annual figures are those of the year's draws", "statement": "The energy not served and the loss-of-load hours that the program finds at each year end for the pool, per forecast tier, are the sums over the year's draws of what the pool lacks at that draw according to the cards (load with forecast error less the available capacity, by the unit's own random stream, season and maintenance), up to the dropping of fractions of a MW; a year with loss of load in every hour shows 8760 hours.", "quantifier": "all accepted inputs, all years of all runs, all forecast tiers", "why_tests_cant": "sums over 8760 draws of every year of every run, for all inputs", "anchors": ["reliabilityassessment/monte_carlo/hour.py:hour", "reliabilityassessment/monte_carlo/year.py:year", "reliabilityassessment/monte_carlo/gstate.py:gstate", "reliabilityassessment/monte_carlo/sumcap.py:sumcap", "reliabilityassessment/data_processing/datax.py:datax", "reliabilityassessment/data_processing/dataf1.py:dataf1", "reliabilityassessment/data_processing/xldnew.py:xldnew"]}
{"id": "C107", "title": "A better system never looks worse", "statement": "If a second study has lower peaks, larger or more reliable units, less maintenance or additional units at the end of the list, and otherwise the same input, then in every year and forecast tier the pool's energy not served and loss-of-load hours are not larger than in the first (up to the rounding to whole MW per area).", "quantifier": "all pairs of accepted inputs, all years of all runs", "why_tests_cant": "a statement about pairs of runs of all lengths on all inputs", "anchors": ["reliabilityassessment/monte_carlo/hour.py:hour", "reliabilityassessment/monte_carlo/year.py:year", "reliabilityassessment/monte_carlo/gstate.py:gstate", "reliabilityassessment/monte_carlo/seeder.py:seeder", "reliabilityassessment/data_processing/datax.py:datax"]}
{"id": "C108", "title": "Adding a unit leaves the random history of the others alone", "statement": "When a unit is appended to the list of units, every other unit and every line gets the same random numbers as before at every draw, so that two studies differ only by what was changed (common random numbers).", "quantifier": "all pairs of accepted inputs, all draws of all runs", "why_tests_cant": "statement about the streams of pairs of runs of unbounded length", "anchors": ["reliabilityassessment/monte_carlo/seeder.py:seeder", "reliabilityassessment/monte_carlo/gstate.py:gstate", "reliabilityassessment/monte_carlo/lstate.py:lstate", "reliabilityassessment/data_processing/datax.py:datax"]}
{"id": "C109", "title": "The running count of shortages per area is the history's", "statement": "The per-area count of shortages that the program keeps and saves with every snapshot is, at every moment of every run, the number of loss-of-load hours booked for the area at all draws of the run so far, in all years and all forecast tiers together; a restart continues with it.", "quantifier": "all inputs, all histories, every point of a run between events", "why_tests_cant": "an accumulated count over runs of any length", "anchors": ["reliabilityassessment/monte_carlo/hrstat.py:hrstat", "reliabilityassessment/monte_carlo/hour.py:hour", "reliabilityassessment/monte_carlo/year.py:year", "reliabilityassessment/monte_carlo/intm.py:intm", "reliabilityassessment/monte_carlo/rstart.py:rstart"]}
{"id": "C110", "title": "An ample network never decides", "statement": "If every line in every state and every area limit can carry the highest load of the pool, and in every hour some area needs help, then the run ends regularly, no draw needs a re-dispatch, and the pool's annual energy not served and loss-of-load hours are those of the pooled system: two studies that differ only in (ample) lines, admittances and area limits report the same up to the rounding to whole MW.", "quantifier": "all accepted inputs with a connected ample network, all topologies and admittances, all runs, years and forecast tiers", "why_tests_cant": "needs a bound on the flow over every line of every network in every sampled state, and statements about pairs of whole runs", "anchors": ["reliabilityassessment/monte_carlo/tm2.py:tm2", "reliabilityassessment/monte_carlo/transm.py:transm", "reliabilityassessment/monte_carlo/flo.py:flo", "reliabilityassessment/monte_carlo/assign.py:assign", "reliabilityassessment/monte_carlo/hour.py:hour", "reliabilityassessment/monte_carlo/year.py:year", "reliabilityassessment/data_processing/datax.py:datax"]}
{"id": "C111", "title": "The sharing rule decides who bears a shortage", "statement": "When the network is no obstacle, what the pool as a whole lacks at a draw is shared out among the areas exactly and by the rule of the input: without loss sharing in proportion to what each area lacks itself (so never more than that, and nothing for areas that lack nothing), with loss sharing in proportion to the areas' loads; what the areas' records grow by is this share.", "quantifier": "all accepted inputs with a sound network, all draws of all runs at which no limit binds, all forecast tiers", "why_tests_cant": "an equation for every area at every draw of every run, for all capacities and loads", "anchors": ["reliabilityassessment/monte_carlo/assign.py:assign", "reliabilityassessment/monte_carlo/transm.py:transm", "reliabilityassessment/monte_carlo/hour.py:hour", "reliabilityassessment/monte_carlo/hrstat.py:hrstat"]}
{"id": "C112", "title": "The annual figures of every area are those of its share", "statement": "When no limit binds in a run, the energy not served and the loss-of-load hours in the books of an area at each year end, per forecast tier, are in whole MWh exactly the sums over the year's draws of what the area bears according to the cards, the random streams and the sharing rule; without loss sharing, being interconnected never costs an area anything.", "quantifier": "all accepted inputs with a sound network, all runs in which no limit binds, all years, areas and forecast tiers", "why_tests_cant": "exact sums over 8760 draws of every year of every run, for all inputs", "anchors": ["reliabilityassessment/monte_carlo/hour.py:hour", "reliabilityassessment/monte_carlo/year.py:year", "reliabilityassessment/monte_carlo/hrstat.py:hrstat", "reliabilityassessment/monte_carlo/assign.py:assign", "reliabilityassessment/monte_carlo/transm.py:transm", "reliabilityassessment/data_processing/datax.py:datax"]}
{"id": "C113", "title": "A network that never binds has no influence at all", "statement": "Two studies of the same system that differ only in the network - number of lines, end areas, states, admittances, ratings, outage rates, flow limits of the areas - and in neither of which a limit ever binds, process the same events, use the same random numbers for the units, keep exactly the same counters, histograms and annual tables, stop after the same year for the same reason and print the same report.", "quantifier": "all pairs of accepted inputs with sound networks that differ only in the network, all runs in which no limit binds, every point of the runs", "why_tests_cant": "an equality between two whole runs, for all networks and all histories", "anchors": ["reliabilityassessment/monte_carlo/hour.py:hour", "reliabilityassessment/monte_carlo/transm.py:transm", "reliabilityassessment/monte_carlo/year.py:year", "reliabilityassessment/monte_carlo/contrl.py:contrl", "reliabilityassessment/monte_carlo/seeder.py:seeder", "reliabilityassessment/data_processing/datax.py:datax"]}
{"id": "C114", "title": "The printed report follows from the input files", "statement": "When no limit binds in a run, every figure of the final report is determined by the input cards, the published random streams and the sharing rule: for every area the mean over the simulated years, weighted over the forecast tiers, of the loss-of-load days at the daily peak, the loss-of-load hours and the energy not served, with their standard errors; the same for the pool; and the distribution of the annual values over the classes.", "quantifier": "all accepted inputs with a sound network, all runs that come to their end and in which no limit binds, all areas, classes and numbers of years", "why_tests_cant": "an equation between every printed figure and sums over all draws of all years, for all inputs", "anchors": ["reliabilityassessment/monte_carlo/hour.py:hour", "reliabilityassessment/monte_carlo/hrstat.py:hrstat", "reliabilityassessment/monte_carlo/pkstat.py:pkstat", "reliabilityassessment/monte_carlo/year.py:year", "reliabilityassessment/monte_carlo/report.py:report", "reliabilityassessment/monte_carlo/transm.py:transm", "reliabilityassessment/data_processing/datax.py:datax"]}
{"id": "C115", "title": "A better system is worse for nobody", "statement": "Without loss sharing and with no limit binding: raise capacities, lower outage rates or deratings, drop planned outages, add units at the end of the list or lower peaks in some areas, leaving everything else as it was, and no area and not the pool shows more loss-of-load hours or more energy not served in any year and forecast tier, nor (with the same peaks) more loss-of-load days, and no line of the final report shows a higher mean after the same number of years.", "quantifier": "all pairs of accepted inputs with sound networks of which the second is at least as good area by area, all runs in which no limit binds, all years, areas and tiers", "why_tests_cant": "a comparison of every figure of two whole runs, for all pairs of inputs", "anchors": ["reliabilityassessment/monte_carlo/hour.py:hour", "reliabilityassessment/monte_carlo/hrstat.py:hrstat", "reliabilityassessment/monte_carlo/pkstat.py:pkstat", "reliabilityassessment/monte_carlo/year.py:year", "reliabilityassessment/monte_carlo/report.py:report", "reliabilityassessment/monte_carlo/assign.py:assign", "reliabilityassessment/monte_carlo/transm.py:transm", "reliabilityassessment/data_processing/datax.py:datax"]}
{"id": "C116", "title": "The page shows the figures", "statement": "The text that the final report appends to output.txt shows what was computed, line by line: every row of the table (areas numbered from 1, tiers from 1 or AV, then the columns in the order of the titles), every area and the pool in the summary by name with the reserve, the means and the standard errors, and every class of every distribution, each on a line of its own, with each figure rounded to its number of decimals and never cut; words that are read back differ from the figure by at most half a unit of the last decimal.", "quantifier": "all reports, i.e. all values of all counters, all numbers of areas, tiers and years, both modes, all names of areas without line ends", "why_tests_cant": "every number of any size must fit its column without running into the next one, for all values", "anchors": ["reliabilityassessment/monte_carlo/report.py:report", "reliabilityassessment/monte_carlo/narpMain.py:narpMain"]}
{"id": "C117", "title": "The annual tables can be read like the final report", "statement": "The annual table that is appended to output.txt shows every row of the areas and of the pool on a line of its own, with the areas and tiers numbered as in the final report and in the input.", "quantifier": "all annual tables, i.e. all values of all counters, all numbers of areas and tiers, both modes", "why_tests_cant": "an equation between the text and the rows for all values; reading single outputs shows single outputs", "anchors": ["reliabilityassessment/monte_carlo/year.py:year", "reliabilityassessment/monte_carlo/report.py:report"]}
{"id": "C118", "title": "Double precision does not spoil the printed averages", "statement": "The loss-of-load hours, days, energies and mean shortages that the final report prints as averages over the forecast tiers and the years are right in spite of the rounding of every single operation, in whatever order the library adds the tiers up: read back, a printed mean of Y years is off from the true mean by at most half a unit of its last digit and a fraction (Y + 7) / 2^52 of itself; for hours a year and up to a million years by at most 0.000502 in all.", "quantifier": "all annual counts in all tiers, all numbers of years up to 2^49, all orders of the additions, with and without fused operations", "why_tests_cant": "a bound on accumulated rounding errors, for all values, lengths and orders of summation", "anchors": ["reliabilityassessment/monte_carlo/year.py:year", "reliabilityassessment/monte_carlo/report.py:report"]}
{"id": "C119", "title": "Double precision does not spoil the printed standard errors", "statement": "The standard errors in the summary of the final report are numbers, and right to the printed digits as long as the squares of the annual values are not near the limits of double precision.", "quantifier": "all annual counts, all numbers of years, with and without forecast tiers", "why_tests_cant": "the number under the root is a difference of rounded numbers; whether it can become negative depends on all roundings before", "anchors": ["reliabilityassessment/monte_carlo/year.py:year", "reliabilityassessment/monte_carlo/report.py:report"]}
{"id": "C120", "title": "The forecast tiers of an hour are evaluated independently of each other", "statement": "What an hour records in a forecast tier depends only on the draws, the network and the load of that tier: it is what the same hour would record if the tier were evaluated by itself, and not on what was computed for the tiers before it.", "quantifier": "all hours, all draws, all networks, all forecast tiers", "why_tests_cant": "the network arrays are carried from tier to tier; whether a later tier sees what an earlier one left depends on all combinations of draws, limits and tiers", "anchors": ["reliabilityassessment/monte_carlo/hour.py:hour", "reliabilityassessment/monte_carlo/transm.py:transm", "reliabilityassessment/monte_carlo/tm1.py:tm1", "reliabilityassessment/monte_carlo/tm2.py:tm2"]}
{"id": "C121", "title": "What a run leaves in output.txt", "statement": "Whatever output.txt holds when the event loop starts stays in it unchanged, in front. When the run ends, behind it are exactly these lines: if annual tables are asked for, one page for every simulated year, in the order of the years, headed by the number of the year and showing the table of that year; then the final report, once, whose tables are numbered after those of the years and which names the number of simulated years. While the run goes on there are only the pages of the years that have ended. Writing the file never stops a run.", "quantifier": "all histories of the program with a horizon of whole years, all earlier contents of the file, all numbers of years until the end, both modes, with and without annual tables", "why_tests_cant": "the file is opened again by every yearly event and by the report; that no page is missing, doubled, out of order or mixed with another must hold for every number of years and every way the run ends", "anchors": ["reliabilityassessment/monte_carlo/year.py:year", "reliabilityassessment/monte_carlo/report.py:report", "reliabilityassessment/monte_carlo/contrl.py:contrl"]}
{"id": "C122", "title": "The annual pages follow from the input files", "statement": "When annual tables are asked for, the page of year y in output.txt has for every area and forecast tier, for the averages over the tiers, and for the pool the days and hours with loss of load and the energy not served of the draws of year y and of no other year: what the unit outages drawn from the random streams, the capacities, loads and planned outages on the cards and the sharing rule give, draw by draw.", "quantifier": "all studies in which no line or area limit binds, all years of all runs, all areas and tiers, both modes", "why_tests_cant": "a chain from the input cards over every draw of every year to the digits on the page; a test compares one page of one study", "anchors": ["reliabilityassessment/monte_carlo/year.py:year", "reliabilityassessment/monte_carlo/hour.py:hour", "reliabilityassessment/monte_carlo/narpMain.py:narpMain"]}
{"id": "C123", "title": "The printed maintenance schedule", "statement": "If the maintenance report is wanted, output.txt gets one page for each area that has units, in the order of the areas, with consecutive table numbers, without changing what was in the file: the weekly peak loads of the area, a table with one row for each unit that has a planned outage (marking the weeks of the outage), and the weekly peaks increased by the capacity on maintenance in that week. If it is not wanted, nothing is written.", "quantifier": "every system, every planned maintenance on the unit cards, every content of output.txt, every area and week", "why_tests_cant": "the schedule and the weekly peaks are arbitrary; a test prints one system", "anchors": ["reliabilityassessment/data_processing/pmsc.py: pmsc", "reliabilityassessment/data_processing/smaint.py: smaint"]}
{"id": "C124", "title": "The available capacity of an area is right on average", "statement": "Over a full period of the random number generator (8388608 draws in a row, starting anywhere) the capacity that the draws make available in an area is on average what the cards of its units promise: the sum of rating x (1 - full outage rate - derating rate x derating), up to 3/2 of the installed capacity divided by the number of draws.", "quantifier": "all accepted studies, all areas (without or with two or more units) whose units have no planned outages and the same rating in all seasons, all stretches of a full period in all runs, both modes", "why_tests_cant": "a statement about eight million draws of a run of a thousand years, for all outage rates", "anchors": ["reliabilityassessment/monte_carlo/gstate.py:gstate", "reliabilityassessment/monte_carlo/hour.py:hour", "reliabilityassessment/monte_carlo/seeder.py:seeder", "reliabilityassessment/data_processing/datax.py:datax"]}
