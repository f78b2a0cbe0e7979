import Verif.CText.Lex

/-!
# More templates, verbatim

Generated by `tools/embed_templates.py` from `/repo/src/acetone_nnet/templates`; `embed_templates.py --check` compares.
-/

namespace Verif.CText.Tpl

/-- `templates/normalization/template_pre_processing.c.tpl` -/
def pre_processing : List Char := chars! "    // pre-processing for the normalization
    for (i = 0; i < {{input_size}}; ++i) 
    { 
        if ( nn_input[i] < input_min[i]){
            nn_input[i] = (input_min[i]-input_mean[i])/input_range[i];
        }
        else
        {
            if (nn_input[i] > input_max[i]){
                nn_input[i] = (input_max[i]-input_mean[i])/input_range[i];
            }
            else
            {
                nn_input[i] = (nn_input[i]-input_mean[i])/input_range[i];
            }
        }
    }
    "

/-- `templates/normalization/template_post_processing.c.tpl` -/
def post_processing : List Char := chars! "    // post-processing for the normalization
    for (k = 0; k < {{output_size}}; ++k)
    {
        prediction[k] = prediction[k] * output_range + output_mean;
    }
"

/-- `templates/normalization/template_normalization_cst_in_global_var_file.c.tpl` -/
def normalization_cst_in_global_var_file : List Char := chars! "
// Normalization cst
extern float input_min[{{input_size}}] = {{input_min}};
extern float input_max[{{input_size}}] = {{input_max}};
extern float input_mean[{{input_size}}] = {{input_mean}};
extern float input_range[{{input_size}}] = {{input_range}};
extern float output_mean = {{output_mean}};
extern float output_range = {{output_range}};"

/-- `templates/normalization/template_normalization_cst_in_header_file.c.tpl` -/
def normalization_cst_in_header_file : List Char := chars! "
// Normalization cst
extern float input_min[{{input_size}}];
extern float input_max[{{input_size}}];
extern float input_mean[{{input_size}}];
extern float input_range[{{input_size}}];
extern float output_mean;
extern float output_range;
"

/-- `templates/layers/Conv/template_Conv_DW_HWC.c.tpl` -/
def conv_DW_HWC : List Char := chars! "    /* {{name}}_{{idx}} {{KH}}x{{KW}} depth-wise {{comment}} {{#original_name}}(layer {{original_name}} in  input model){{/original_name}}
        * Input [H][W][C]:[{{H_in}}][{{W_in}}][{{C}}]
        * Output [H][W][K]:[{{H_out}}][{{W_out}}][{{K}}]
        * Kernel [KH][KW]:[{{KH}}][{{KW}}]
        * stride:{{STRIDE}} pad:{{PAD}}
        */

    for (int oh = 0; oh < {{H_out}}; ++oh) {
        const int h_start_idx = oh * {{STRIDE}} - {{PAD}};
        const int kh_start = (0 > -h_start_idx) ? 0 : -h_start_idx;
        const int kh_end = ({{KH}} < {{H_in}} - h_start_idx) ? {{KH}} : ({{H_in}} - h_start_idx);

        for (int ow = 0; ow < {{W_out}}; ++ow) {
            // Accès direct avec restrict pour l'écriture
            float * restrict out_ptr = (float * restrict)&ctx->tensor_temp[(oh * {{W_out}} * {{K}}) + (ow * {{K}})];
            #pragma omp simd
            for (int k = 0; k < {{K}}; ++k) {
                out_ptr[k] = ((const float * restrict)biases_{{name}}_{{idx}})[k];
            }

            const int w_start_idx = ow * {{STRIDE}} - {{PAD}};
            const int kw_start = (0 > -w_start_idx) ? 0 : -w_start_idx;
            const int kw_end = ({{KW}} < {{W_in}} - w_start_idx) ? {{KW}} : ({{W_in}} - w_start_idx);

            for (int kh = kh_start; kh < kh_end; ++kh) {
                const int ih = h_start_idx + kh;
                for (int kw = kw_start; kw < kw_end; ++kw) {
                    const int iw = w_start_idx + kw;
                    const float * restrict in_ptr = (const float * restrict)&ctx->{{output_str}}[(ih * {{W_in}} * {{K}}) + (iw * {{K}})];
                    const float * restrict w_ptr  = (const float * restrict)&weights_{{name}}_{{idx}}[(kh * {{KW}} * {{K}}) + (kw * {{K}})];

                    #pragma omp simd
                    for (int k = 0; k < {{K}}; ++k) {
                        out_ptr[k] += in_ptr[k] * w_ptr[k];
                    }
                }
            }
        }
    }
    for (k = 0; k < {{size}}; ++k)
    {
        {{#activation_function}}
        ctx->output_{{road}}[k] = {{{activation_function}}};
        {{/activation_function}}
        {{^activation_function}}
        ctx->output_{{road}}[k] = ctx->tensor_temp[k];
        {{/activation_function}}
    }

"

/-- `templates/layers/template_Pooling2D_HWC.c.tpl` -/
def pooling2D_HWC : List Char := chars! "    // {{name}}_{{idx}}{{comment}} {{#channels_last}}HWC layout{{/channels_last}} {{#original_name}}(layer {{original_name}} in  input model){{/original_name}}
    {
        {{#is_avgpool}}
        // Calcul de l'aire inverse déplacé au début (invariant)
        float inv_area = 1.0f / (float)({{pool_size}} * {{pool_size}});
        {{/is_avgpool}}
        for (int oh = 0; oh < {{output_height}}; ++oh) {
            int temp_h_start = {{pad_left}} - oh * {{strides}};
            int kh_start = (0 > temp_h_start) ? 0 : temp_h_start;
            
            int temp_h_end = {{input_height}} + {{pad_left}} - oh * {{strides}};
            int kh_end = ({{pool_size}} < temp_h_end) ? {{pool_size}} : temp_h_end;

            for (int ow = 0; ow < {{output_width}}; ++ow) {
                int temp_w_start = {{pad_left}} - ow * {{strides}};
                int kw_start = (0 > temp_w_start) ? 0 : temp_w_start;
                
                int temp_w_end = {{input_width}} + {{pad_left}} - ow * {{strides}};
                int kw_end = ({{pool_size}} < temp_w_end) ? {{pool_size}} : temp_w_end;
                float* out_ptr = &ctx->tensor_temp[(oh * {{output_width}} + ow) * {{input_channels}}];

                // Initialize channel accumulators
                for (int c = 0; c < {{input_channels}}; ++c) {
                    {{#is_maxpool}}out_ptr[c] = -INFINITY;{{/is_maxpool}}
                    {{#is_avgpool}}out_ptr[c] = 0.0f;{{/is_avgpool}}
                }

                // Spatial window loops
                for (int kh = kh_start; kh < kh_end; ++kh) {
                    int ih = oh * {{strides}} + kh - {{pad_left}};
                    for (int kw = kw_start; kw < kw_end; ++kw) {
                        int iw = ow * {{strides}} + kw - {{pad_left}};
                        
                        const float* in_ptr = &ctx->{{output_str}}[(ih * {{input_width}} + iw) * {{input_channels}}];

                        // Innermost Channel Loop 
                        for (int c = 0; c < {{input_channels}}; ++c) {
                            {{#is_maxpool}}
                            out_ptr[c] = (in_ptr[c] > out_ptr[c]) ? in_ptr[c] : out_ptr[c];
                            {{/is_maxpool}}
                            {{#is_avgpool}}
                            out_ptr[c] += in_ptr[c];
                            {{/is_avgpool}}
                        }
                    }
                }

                {{#is_avgpool}}
                // Averaging
                for (int c = 0; c < {{input_channels}}; ++c) {
                    out_ptr[c] *= inv_area;
                }
                {{/is_avgpool}}
                {{#activation_function}}
                // Activation
                for (int c = 0; c < {{input_channels}}; ++c) {
                    out_ptr[c] = {{{activation_function}}};
                }
                {{/activation_function}}
            }
        }
        for (k = 0; k < {{size}}; ++k)
        {
            ctx->output_{{road}}[k] = ctx->tensor_temp[k];
        }
    }"

end Verif.CText.Tpl
